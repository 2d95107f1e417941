{"id": "C01", "title": "Components are evaluated after everything they depend on", "statement": "For every model whose parameters/recorders declare their dependencies, each component is visited exactly once per phase (setup, reset, before, value calculation, after, finish), and always after every component it depends on, directly or through other components. A model whose declared dependencies contain a cycle is rejected with a structure error instead of being run in some order.", "quantifier": "every finite component graph, every order in which components and dependency edges were added", "why_tests_cant": "Graphs are unbounded and the order depends on insertion history; tests sample a handful of small graphs.", "anchors": ["pywr/_model.pyx: flatten_component_tree, Model.before/_step", "pywr/_component.pyx: GraphInterface.add, Component.__init__"]}
{"id": "C02", "title": "Every parameter used as a threshold list entry is a declared dependency", "statement": "When a parameter's value is computed from other parameters (including the list of thresholds of the multiple-threshold parameters), those parameters have already been evaluated for the current timestep, so the value never depends on construction order.", "quantifier": "every construction order of the parameters of a model", "why_tests_cant": "Whether the stale value is seen depends on the order in which objects happen to be created; a test fixes one order.", "anchors": ["pywr/parameters/_thresholds.pyx: MultipleThresholdIndexParameter.__init__, MultipleThresholdParameterIndexParameter.__init__", "pywr/_component.pyx: GraphInterface.add", "pywr/_model.pyx: flatten_component_tree"]}
{"id": "C03", "title": "Scenario combinations are the complete duplicate-free product in lexicographic order", "statement": "With no user combinations, the model runs exactly one simulation column for each choice of one (selected) ensemble member per scenario, each choice once, in lexicographic order with the last scenario varying fastest; column numbers are consecutive from zero. With no scenarios at all there is exactly one column.", "quantifier": "every list of scenario sizes and slices", "why_tests_cant": "Number of scenarios and sizes is unbounded; the claim is about all of them.", "anchors": ["pywr/_core.pyx: ScenarioCollection.get_combinations, ScenarioCollection.setup"]}
{"id": "C04", "title": "Scenario column number and multi-dimensional index agree", "statement": "When no slices or user combinations are used, reshaping a per-column result to the scenario shape puts the value of the combination (i1,...,ik) at position [i1,...,ik]; converting the indices of a combination to a flat index gives its column number and the conversion is injective on valid indices.", "quantifier": "every list of scenario sizes and every valid index tuple", "why_tests_cant": "Mixed-radix arithmetic over arbitrary many dimensions.", "anchors": ["pywr/_core.pyx: ScenarioCollection.ravel_indices, shape, ScenarioIndex.global_id"]}
{"id": "C05", "title": "User scenario combinations are validated and used verbatim", "statement": "A table of user combinations is accepted iff it is two dimensional with one column per scenario and every entry addresses an existing ensemble member; when accepted, the model runs exactly those rows in that order. The validity cannot be lost by operations that later change the set of scenarios.", "quantifier": "every table, every set of scenarios, every interleaving of adding scenarios and setting combinations", "why_tests_cant": "The validity check happens at set time only; histories that add scenarios later are not explored by tests.", "anchors": ["pywr/_core.pyx: ScenarioCollection.user_combinations, add_scenario, get_combinations"]}
{"id": "C06", "title": "Iterating the timestepper yields every period once, in order, then stops", "statement": "After a reset, iterating yields exactly the model periods from the start position to the end, consecutively and once each, then signals exhaustion (and keeps signalling it); the `current` timestep equals the last one yielded while iterating and sits one period past the end once exhausted. Iterating after another reset yields the same sequence again.", "quantifier": "every non-empty list of periods, every start position, every number of next() calls, every interleaving with reset", "why_tests_cant": "An unbounded call history over a stateful iterator.", "anchors": ["pywr/timestepper.py: Timestepper.next, reset, setup"]}
{"id": "C07", "title": "Resetting the timestepper to a date selects the period containing it", "statement": "reset(start) positions the next timestep on the unique period that contains the given instant, and raises ValueError exactly when no model period contains it.", "quantifier": "every contiguous list of periods and every instant", "why_tests_cant": "Boundary instants (the last tick of a period) are not enumerated by tests.", "anchors": ["pywr/timestepper.py: Timestepper.reset"]}
{"id": "C08", "title": "Day-of-year index is calendar aligned", "statement": "The daily profile index (0..365) of a date depends only on its month and day, not on whether the year is a leap year; different month/day pairs get different indices; 29 February is index 59; the leap year rule used is the Gregorian rule. The week index is between 0 and 51.", "quantifier": "every date of every year", "why_tests_cant": "A claim about all years; tests check a few dates.", "anchors": ["pywr/_core.pyx: is_leap_year, Timestep.__init__ (dayofyear_index, week_index)"]}
{"id": "C09", "title": "A timestep's days are split exactly between the years it touches", "statement": "For a timestep that may straddle a new year, the days in the current year and the days in the next year are non-negative and sum to the length of the timestep; the second is zero when the timestep does not cross a year end.", "quantifier": "every start instant and every length not longer than a year", "why_tests_cant": "Continuous range of instants.", "anchors": ["pywr/_core.pyx: Timestep.days_in_current_year, days_in_next_year"]}
{"id": "C10", "title": "Storage volumes stay between minimum and maximum", "statement": "If the volume starts between the minimum and maximum volume (which do not change) and every solution returned by the solver satisfies the storage constraints handed to it, then at the end of every timestep the volume of every storage is between its minimum and maximum, up to the solver's rounding tolerance of bounds.", "quantifier": "every sequence of timestep lengths, every feasible solver answer in every step", "why_tests_cant": "Depends on an unbounded sequence of arbitrary feasible LP solutions.", "anchors": ["pywr/_core.pyx: Storage.after", "pywr/solvers/cython_glpk.pyx: CythonGLPKSolver._solve_scenario (storage bounds), CythonGLPKEdgeSolver._solve_scenario"]}
{"id": "C11", "title": "Storage volume change equals net inflow", "statement": "Over any run, the volume of a storage equals its initial volume plus the sum over timesteps of (flow into the store minus flow out of it) times the timestep length, up to at most 1e-6 per timestep (for bounds that are equal or at least 1e-6 apart); when the volume is not within 1e-6 of a bound it is exact.", "quantifier": "every sequence of commits and timestep lengths", "why_tests_cant": "Error accumulation over an unbounded number of steps.", "anchors": ["pywr/_core.pyx: Storage.after, StorageInput.commit, StorageOutput.commit, AbstractNode.commit"]}
{"id": "C12", "title": "Current storage fraction is always usable", "statement": "The fraction of storage reported to parameters (control curves etc.) is always in [0, 1], including when the maximum volume is zero or the volume has been moved outside its bounds; otherwise it is volume divided by maximum volume.", "quantifier": "every volume and maximum volume", "why_tests_cant": "Continuous range including degenerate maximum volumes.", "anchors": ["pywr/_core.pyx: AbstractStorage.get_current_pc, Storage.after, Storage._reset_storage_only"]}
{"id": "C13", "title": "Initial volume and initial fraction are consistent", "statement": "The initial volume is initial fraction times maximum volume when a fraction is given and the given volume otherwise; the initial fraction reported is the initial volume divided by the maximum volume (with a zero maximum: the given fraction, or undefined if none is given); with a non-constant maximum volume both must be given, otherwise the run is refused.", "quantifier": "every combination of given/omitted initial volume and fraction, every constant or varying maximum volume", "why_tests_cant": "Decision table times a continuous domain.", "anchors": ["pywr/_core.pyx: Storage.get_initial_volume, get_initial_pc, _reset_storage_only"]}
{"id": "C14", "title": "A rolling virtual storage conserves licensed volume and enforces the window", "statement": "For a rolling licence over T timesteps with constant maximum volume, at every moment volume plus the use of the previous T-1 timesteps equals the maximum; hence as long as each step uses no more than the remaining volume, the total use in every window of T consecutive timesteps never exceeds the licensed volume.", "quantifier": "every T >= 2, every length of run, every sequence of uses", "why_tests_cant": "A sliding-window claim over unbounded histories.", "anchors": ["pywr/_core.pyx: RollingVirtualStorage.setup, reset, after", "pywr/nodes.py: RollingVirtualStorage"]}
{"id": "C15", "title": "An annual virtual storage is replenished once per year at the reset date", "statement": "For every run, an annual virtual storage is reset to its initial (or maximum) volume exactly once for each year in which some timestep falls on or after the reset date, at the first such timestep, and at no other time; a run that starts after the reset date counts its first year as already reset.", "quantifier": "every chronological sequence of timesteps of every length and frequency, every reset day and month", "why_tests_cant": "Coarse timesteps and reset dates late in the year combine in unbounded ways.", "anchors": ["pywr/nodes.py: AnnualVirtualStorage.before, reset"]}
{"id": "C16", "title": "A monthly virtual storage is replenished every n months", "statement": "For a run that visits every calendar month, a monthly virtual storage with period n and initial offset k is reset exactly at the first timestep of months number n-k, 2n-k, ... after the start.", "quantifier": "every n >= 1, every offset from 0 to n (with a larger one the storage is never reset, which is proved too), every chronological sequence of timesteps", "why_tests_cant": "Counter history over unbounded runs.", "anchors": ["pywr/nodes.py: MonthlyVirtualStorage.before, reset"]}
{"id": "C17", "title": "A seasonal virtual storage is active exactly between its dates", "statement": "A seasonal virtual storage constrains flows exactly in the timesteps between the reset date and the end date of each year, and re-running the same model gives the same active periods.", "quantifier": "every chronological sequence of timesteps, every reset/end date, any number of runs of the same model object", "why_tests_cant": "State that survives a reset only shows up in a second run from an arbitrary point.", "anchors": ["pywr/nodes.py: SeasonalVirtualStorage.before, reset", "pywr/_core.pyx: VirtualStorage.after, active"]}
{"id": "C18", "title": "Re-running a model gives the same results", "statement": "After a model has been run, resetting it restores every piece of state that can influence a later result (flows, previous flows, volumes, parameter state), so a second run of the same model object produces exactly the results of the first.", "quantifier": "every node/parameter type, every history of previous steps", "why_tests_cant": "Needs all histories before the reset; a test only sees one.", "anchors": ["pywr/_model.pyx: Model.reset, Model.run", "pywr/_core.pyx: AbstractNode.reset, AggregatedStorage.reset", "pywr/_model.pyx: NodeIterator.__iter__"]}
{"id": "C19", "title": "Previous flow is the flow of the previous timestep", "statement": "During a timestep, the previous flow reported by any node with a flow equals the flow that node ended the preceding timestep with (zero in the first timestep).", "quantifier": "every node type, every sequence of timesteps and committed flows", "why_tests_cant": "Order of copy and accumulate differs per class; only an induction over steps settles it for all.", "anchors": ["pywr/_core.pyx: AbstractNode.after, AggregatedNode.after, AggregatedStorage.after, Storage.after", "pywr/nodes.py: BreakLink.after, DelayNode.after, LossLink.after"]}
{"id": "C20", "title": "An aggregated node reports the weighted sum of its members' flows and its limits apply to that sum", "statement": "After every timestep the flow of an aggregated node is the sum of its member flows times their weights, and any minimum/maximum flow set on it bounds that reported flow in every solution that satisfies the constraints.", "quantifier": "every network, every member list and weights, every feasible solution", "why_tests_cant": "Depends on route structure (a route may pass through several members).", "anchors": ["pywr/_core.pyx: AggregatedNode.after", "pywr/solvers/cython_glpk.pyx: aggregated node rows in setup"]}
{"id": "C21", "title": "Aggregated-node factors fix the ratio between member flows", "statement": "When an aggregated node has factors, in every solution satisfying the constraints the flows of its members are proportional to the factors.", "quantifier": "every member list, every non-zero factors, every feasible solution", "why_tests_cant": "Universally quantified over LP solutions.", "anchors": ["pywr/_core.pyx: AggregatedNode.get_factors_norm", "pywr/solvers/cython_glpk.pyx: aggregated factor rows"]}
{"id": "C22", "title": "Node flow limits are honoured", "statement": "For every node, in every solution satisfying the constraints built by the solver, the flow reported for the node is between its minimum and maximum flow (limits smaller than 1e-8 in magnitude are taken as zero), for both the route-based and the edge-based solver.", "quantifier": "every network, every limits, every feasible solution", "why_tests_cant": "Universally quantified over networks and LP solutions.", "anchors": ["pywr/solvers/cython_glpk.pyx: CythonGLPKSolver.setup/_solve_scenario, CythonGLPKEdgeSolver.setup/_solve_scenario"]}
{"id": "C23", "title": "The objective is the total of node flow times node cost", "statement": "The quantity minimised by each solver equals the sum over nodes of node flow times node cost (costs smaller than 1e-8 taken as zero).", "quantifier": "every network, every cost assignment, every flow", "why_tests_cant": "An algebraic identity over arbitrary networks.", "anchors": ["pywr/solvers/cython_glpk.pyx: objective coefficients (route and edge solver)"]}
{"id": "C24", "title": "Route solver and edge solver agree", "statement": "For networks without cross-domain links, every feasible route solution corresponds to a feasible edge solution with the same node flows and the same objective, and every feasible edge solution (without circulating flow) to a feasible route solution with the same node flows and objective; so both solvers attain the same optimum.", "quantifier": "every acyclic network, every feasible solution", "why_tests_cant": "Flow decomposition for arbitrary networks.", "anchors": ["pywr/solvers/cython_glpk.pyx: CythonGLPKSolver, CythonGLPKEdgeSolver", "pywr/_model.pyx: find_all_routes"]}
{"id": "C25", "title": "Bounds handed to the LP mean what the user set", "statement": "A row with lower bound a and upper bound b admits exactly the values between a and b (infinite bounds being no restriction), where bounds closer than 1e-8 become an equality; no NaN reaches the LP without an error.", "quantifier": "every pair of bounds including infinities", "why_tests_cant": "Continuous domain with special values.", "anchors": ["pywr/solvers/cython_glpk.pyx: constraint_type, inf_to_dbl_max, set_row_bnds"]}
{"id": "C26", "title": "Route enumeration finds every valid supply route exactly once", "statement": "The routes given to the solver are exactly the simple directed paths from a node of the first type to a node of the second type whose intermediate nodes are of the permitted types and satisfying the domain rule and length limit, each exactly once.", "quantifier": "every finite network, all node types, all filters", "why_tests_cant": "Path enumeration over arbitrary graphs.", "anchors": ["pywr/_model.pyx: Model.find_all_routes"]}
{"id": "C27", "title": "Flow through a piecewise link fills its segments consistently", "statement": "The flow reported for a piecewise (or multi-split) link is the sum of its segment flows and cannot exceed the sum of the segment maxima; with increasing segment costs any cost-optimal solution uses a segment only when all cheaper ones are full.", "quantifier": "every number of segments, limits and costs, every optimal solution", "why_tests_cant": "Universally quantified over optimal LP solutions.", "anchors": ["pywr/nodes.py: PiecewiseLink, MultiSplitLink"]}
{"id": "C28", "title": "A loss link loses exactly the configured fraction", "statement": "For a loss link with loss factor f, gross flow in equals net flow out times (1 + f) in every solution satisfying the constraints, the node's reported flow is the net flow; a zero loss factor means nothing is lost.", "quantifier": "every loss factor, every feasible solution", "why_tests_cant": "Universally quantified over LP solutions.", "anchors": ["pywr/nodes.py: LossLink"]}
{"id": "C29", "title": "A delay node outputs its inflow delayed by the configured number of steps", "statement": "In every timestep the outflow of a delay node equals its inflow the configured number of timesteps earlier, and the configured initial flow before that; total outflow never exceeds total inflow plus the initial store.", "quantifier": "every delay length, every run length, every inflow sequence", "why_tests_cant": "Ring-buffer behaviour over unbounded histories.", "anchors": ["pywr/nodes.py: DelayNode", "pywr/parameters/_parameters.pyx: FlowDelayParameter"]}
{"id": "C30", "title": "Control curve index counts the curves the storage is below", "statement": "The control curve index is the position of the first curve that the storage fraction is at or above, or the number of curves when it is below all; with decreasing curves the index never decreases as the storage falls; the control-curve value is the value associated with that index.", "quantifier": "every number of curves and values, every storage fraction", "why_tests_cant": "Arbitrary-length curve lists over a continuum of storage levels.", "anchors": ["pywr/parameters/_control_curves.pyx: ControlCurveIndexParameter.index, ControlCurveParameter.value"]}
{"id": "C31", "title": "Interpolated control curve values are interpolations between the bracketing values", "statement": "With decreasing curves, the interpolated value equals the end values at the end points, each listed value at its curve, and otherwise lies between the values of the two neighbouring levels by linear interpolation; it is therefore within the range of the values and never extrapolates.", "quantifier": "every number of decreasing curves, all values, every storage fraction in [0,1]", "why_tests_cant": "Continuous domain with arbitrary many curves, including coincident ones.", "anchors": ["pywr/parameters/_control_curves.pyx: ControlCurveInterpolatedParameter.value, ControlCurvePiecewiseInterpolatedParameter.value, _interpolate"]}
{"id": "C32", "title": "Threshold comparisons and ratchet", "statement": "A threshold parameter's index is 1 exactly when the observed value satisfies the predicate against the threshold; in ratchet mode, once it has become 1 in a scenario it stays 1 in that scenario until the model is reset, and other scenarios are unaffected.", "quantifier": "every sequence of observed values and thresholds, every number of scenarios", "why_tests_cant": "Unbounded histories.", "anchors": ["pywr/parameters/_thresholds.pyx: AbstractThresholdParameter.index, reset"]}
{"id": "C33", "title": "Aggregated parameters compute the named aggregate of current child values", "statement": "An aggregated (index) parameter's value is the sum/minimum/maximum/mean/product/median (any/all for indices) of the values its children have in the same timestep and scenario, independent of the order of children.", "quantifier": "every number of children, all values", "why_tests_cant": "Arbitrary length lists; accumulators with special initial values.", "anchors": ["pywr/parameters/_parameters.pyx: AggregatedParameter.calc_values, AggregatedIndexParameter.calc_values"]}
{"id": "C34", "title": "Flow delay parameter returns the flow of N steps ago", "statement": "The value at timestep t is the delayed node's flow at timestep t-N for t >= N and the initial flow before that; it is unaffected by anything before the last reset.", "quantifier": "every N >= 1, every run length", "why_tests_cant": "Ring buffer over unbounded histories.", "anchors": ["pywr/parameters/_parameters.pyx: FlowDelayParameter"]}
{"id": "C35", "title": "Rolling mean of flow", "statement": "The rolling mean value at timestep t is the arithmetic mean of the node's flow in the previous min(t, N) timesteps (the initial flow in the first timestep).", "quantifier": "every window N >= 1, every run length", "why_tests_cant": "Ring buffer over unbounded histories.", "anchors": ["pywr/parameters/_parameters.pyx: RollingMeanFlowNodeParameter"]}
{"id": "C36", "title": "An annual licence is never exceeded", "statement": "If in every daily timestep of a calendar year the licensed flow is no more than the value of the annual licence parameter, the total volume taken in that year is no more than the licensed amount, and the parameter's value is never negative.", "quantifier": "every sequence of permitted daily flows in leap and non-leap years, any number of years", "why_tests_cant": "Universally quantified over abstraction histories.", "anchors": ["pywr/parameters/licenses.py: StorageLicense, AnnualLicense"]}
{"id": "C37", "title": "Uniform drawdown profile falls linearly from 1 to the residual over each cycle", "statement": "The profile is 1 on the reset day, falls by equal daily amounts, is always between the residual and 1 (for at most 365 residual days), and depends only on the number of days since the last reset.", "quantifier": "every date of every year, every reset day, every residual", "why_tests_cant": "All years and reset dates; leap-day interactions.", "anchors": ["pywr/parameters/_parameters.pyx: UniformDrawdownProfileParameter.value, reset"]}
{"id": "C38", "title": "Profile parameters return the entry for the current calendar position", "statement": "Daily, weekly and monthly profiles never index outside their tables; the value for a date depends only on month/day; a monthly profile without interpolation is constant within the month; with interpolation the value at every knot day equals the monthly value and in between lies between the neighbouring monthly values.", "quantifier": "every date of every year, every table", "why_tests_cant": "All dates and table contents.", "anchors": ["pywr/parameters/_parameters.pyx: DailyProfileParameter, WeeklyProfileParameter, MonthlyProfileParameter"]}
{"id": "C39", "title": "Piecewise integral parameter integrates the step function", "statement": "The value is the integral from 0 to the input value of the given piecewise-constant function; it is continuous and, for non-negative steps, non-decreasing in the input.", "quantifier": "every table of breakpoints and steps, every input", "why_tests_cant": "Continuous domain and arbitrary tables.", "anchors": ["pywr/parameters/_parameters.pyx: PiecewiseIntegralParameter.value"]}
{"id": "C40", "title": "Total and mean recorders report totals and means", "statement": "After a completed run, a total-flow recorder holds the sum over timesteps of flow times factor (times timestep length when integrating); a mean-flow recorder holds the arithmetic mean of flow over the timesteps run; array recorders hold each timestep's value at that timestep's row.", "quantifier": "every run length, every flow history, single models and sub-models of a multi-model run, partial runs", "why_tests_cant": "Depends on the state of the timestepper when finish is called, over arbitrary run lengths.", "anchors": ["pywr/recorders/_recorders.pyx: TotalFlowNodeRecorder, MeanFlowNodeRecorder, MeanParameterRecorder, NumpyArrayNodeRecorder", "pywr/model.py: MultiModel.run", "pywr/timestepper.py: Timestepper.next"]}
{"id": "C41", "title": "Counting recorders count the right timesteps and years", "statement": "The deficit frequency recorder reports the fraction of timesteps with a deficit; the index-count recorder the number of timesteps at or above the threshold; the annual count recorder the number of years in which the index reached the threshold at least once.", "quantifier": "every history of indices/flows, every number of years", "why_tests_cant": "Unbounded histories with year changes.", "anchors": ["pywr/recorders/_recorders.pyx: DeficitFrequencyNodeRecorder, TimestepCountIndexParameterRecorder, AnnualCountIndexParameterRecorder, AnnualCountIndexThresholdRecorder"]}
{"id": "C42", "title": "Event recorders record exactly the maximal runs of trigger", "statement": "For every scenario the recorded events are exactly the maximal runs of consecutive timesteps in which the trigger was non-zero and that lasted at least the minimum length, each with its first timestep and the timestep after its last; events in progress at the end of the run are closed at the end.", "quantifier": "every trigger history in every scenario, every minimum length", "why_tests_cant": "Unbounded histories.", "anchors": ["pywr/recorders/events.py: EventRecorder"]}
{"id": "C43", "title": "Recorder constraint bounds are consistent and decide feasibility", "statement": "Whatever sequence of bound assignments succeeds, the lower bound is never above the upper bound and bounds read back as set; a recorder is violated exactly when its aggregated value lies outside its bounds (or is undefined); the model is feasible exactly when no constrained recorder is violated.", "quantifier": "every sequence of setter calls, every value", "why_tests_cant": "All histories of setter calls.", "anchors": ["pywr/recorders/_recorders.pyx: Recorder.constraint_lower_bounds/constraint_upper_bounds setters, is_constraint_violated", "pywr/_model.pyx: Model.is_feasible"]}
{"id": "C44", "title": "Bisection search returns a feasible value within tolerance of the feasibility limit", "statement": "The bisection search terminates for finite bounds; the value it returns was actually tested feasible (when any tested value was) and is within the tolerance of an infeasible tested value or of the upper bound; if feasibility is downward closed the returned value is within the tolerance of the true limit.", "quantifier": "every feasibility predicate, all bounds and tolerances", "why_tests_cant": "Arbitrary predicates over a continuum.", "anchors": ["pywr/utils/bisect.py: BisectionSearchModel.run"]}
{"id": "C45", "title": "Hash checks are never bypassed by the cache", "statement": "A file whose content does not match the declared checksum is always reported, however many earlier checks of the same or other files took place, and a check passes exactly when the digest of the content at the time it was first successfully checked equals the expected digest up to letter case.", "quantifier": "every sequence of checks", "why_tests_cant": "All histories of cache contents.", "anchors": ["pywr/hashes.py: compute_hash, check_hash", "pywr/_model.pyx: Model.check_hash"]}
{"id": "C46", "title": "Included documents merge without losing data", "statement": "Including other JSON documents concatenates list sections and merges mapping sections with the included document's entries taking precedence for equal keys and no other entry lost; a section with any other type is rejected.", "quantifier": "every base document and list of includes", "why_tests_cant": "Arbitrary documents.", "anchors": ["pywr/_model.pyx: Model._load_json_include/_load_includes, load_from_dict"]}
{"id": "C47", "title": "Parameter references resolve to one shared object regardless of definition order", "statement": "Loading a document creates each named parameter exactly once, whatever the order of definition and however many times it is referenced; a reference to an undefined name or a circular chain of references is reported as an error rather than looping or creating a duplicate.", "quantifier": "every set of parameter definitions with arbitrary references, every definition order", "why_tests_cant": "Arbitrary reference graphs.", "anchors": ["pywr/parameters/_parameters.pyx: load_parameter", "pywr/_model.pyx: Model.load_from_dict"]}
{"id": "C48", "title": "Node names are unique and lookup finds the right node", "statement": "At every time no two nodes of a model have the same name, so looking up by name returns the node with that name; deleting a node also deletes all its sub-nodes and every connection to them.", "quantifier": "every sequence of node creations, renamings and deletions", "why_tests_cant": "Histories of mutations incl. compound nodes.", "anchors": ["pywr/_model.pyx: NodeIterator.__getitem__/__delitem__/keys", "pywr/_core.pyx: AbstractNode.name setter"]}
{"id": "C49", "title": "Coupled models advance in lock-step", "statement": "In a multi-model run all models perform the same number of steps, the k-th steps of all models have the same date, within each step every model runs in the configured order so that values read from an earlier model are of the same timestep; any date mismatch is reported; every model is finished exactly once whether or not an error occurred.", "quantifier": "every number of models and timesteps, errors at any point", "why_tests_cant": "Interleavings and failure points.", "anchors": ["pywr/model.py: MultiModel.run, _step, setup, reset"]}
{"id": "C50", "title": "A run always finishes what it started", "statement": "Model.run sets the model up if needed (otherwise resets it), performs for each timestep all before-hooks, then one solve per scenario, then all after-hooks, and calls every component's finish exactly once, even when an exception is raised in any step; a model with no timesteps raises an error.", "quantifier": "every failure point and run length", "why_tests_cant": "Every crash point.", "anchors": ["pywr/_model.pyx: Model.run, step, _step, before, after, finish"]}
{"id": "C51", "title": "Data frame parameters give each scenario its own column", "statement": "With a scenario attached, the value for a combination is the data at the current timestep (shifted by the offset and clamped to the ends) in the column of that combination's ensemble member, also when only the ensemble members actually run are loaded.", "quantifier": "every scenario selection, every table, every offset", "why_tests_cant": "Index re-mapping for arbitrary selections.", "anchors": ["pywr/parameters/_parameters.pyx: DataFrameParameter.setup/value, TablesArrayParameter"]}
{"id": "C52", "title": "Hydropower target flow inverts the power equation within limits", "statement": "When head is at or above the minimum head and the unconstrained flow is within the flow limits, passing the returned flow to the power calculation gives back the target power; the flow returned is always within the minimum and maximum flow limits (minimum winning) and zero when the head is below the minimum head.", "quantifier": "every head, efficiency, target and limits", "why_tests_cant": "Continuous domain, degenerate head.", "anchors": ["pywr/parameters/_hydropower.pyx: HydropowerTargetParameter.value, inverse_hydropower_calculation", "pywr/recorders/_hydropower.pyx: hydropower_calculation"]}
{"id": "C53", "title": "Water is conserved over the whole network", "statement": "In every timestep of every run, total flow entering the network from inputs equals total flow leaving through outputs plus the total increase of stored volume per unit time; no solution accepted by the constraints creates or destroys water, except at loss/delay/cross-domain nodes in the declared way.", "quantifier": "every network, every feasible solution in every timestep", "why_tests_cant": "System-wide conservation over all runs.", "anchors": ["pywr/solvers/cython_glpk.pyx: route and edge solver setup", "pywr/_core.pyx: commit, Storage.after"]}
{"id": "C54", "title": "Virtual storage is depleted by exactly the factored flow of its nodes and never overdrawn", "statement": "In each timestep in which it is active, a virtual storage's volume falls by the sum of factor times flow of its nodes times the timestep length; the solver's constraint ensures this never exceeds the available volume; when inactive neither happens.", "quantifier": "every network, node list and factors, every feasible solution", "why_tests_cant": "The constraint is written over routes while the depletion is computed over nodes; agreement for all route structures needs proof.", "anchors": ["pywr/solvers/cython_glpk.pyx: virtual storage rows", "pywr/_core.pyx: VirtualStorage.after"]}
{"id": "C55", "title": "Connecting and disconnecting nodes is exact", "statement": "connect adds exactly the edge between the chosen slots (rejecting nodes of different models and unknown slots, without effect); disconnect removes exactly the edges it names and restores the previous graph.", "quantifier": "every graph, every sequence of connect/disconnect on plain and compound nodes", "why_tests_cant": "Histories of graph mutations.", "anchors": ["pywr/nodes.py: Connectable.connect, disconnect, iter_slots"]}
{"id": "C56", "title": "Solver option precedence", "statement": "The solver is the one named in the call, else in the document, else in PYWR_SOLVER, else the first registered one; names match regardless of case and an unknown name is refused. Each GLPK switch has the value given explicitly (in the call or the document), else the value of its environment variable (on for 1 and for true in any case, off for any other text), else off. Every call of the simplex method is made with the time limit, iteration limit and level of messages the solver was made with (the attempt that explains a failure with all messages).", "quantifier": "every environment and keyword combination", "why_tests_cant": "String decision logic over all strings.", "anchors": ["pywr/solvers/__init__.py: _parse_env_kwarg"]}
{"id": "C57", "title": "Recorder aggregation across scenarios", "statement": "The aggregated value of a recorder is the named aggregate (sum, product, min, max, mean, median, count of non-zero) of its per-scenario values, NaN if a value is NaN, or the aggregate of the values that are not NaN with ignore_nan; the order of scenarios does not matter. Recorders that aggregate over time and recorders that aggregate other recorders do the same per scenario.", "quantifier": "every number of scenarios and values", "why_tests_cant": "Arbitrary-length lists.", "anchors": ["pywr/recorders/_recorders.pyx: Aggregator.aggregate_1d, aggregate_2d"]}
{"id": "C58", "title": "Deficit, supplied and curtailment ratios are consistent", "statement": "At every timestep deficit equals maximum flow minus flow, supplied ratio plus curtailment ratio equals one, both ratios lie in [0,1] whenever flow is between zero and maximum flow, and a zero maximum flow counts as fully supplied.", "quantifier": "every flow and maximum flow", "why_tests_cant": "Continuous domain with the degenerate zero.", "anchors": ["pywr/recorders/_recorders.pyx: NumpyArrayNodeDeficitRecorder, NumpyArrayNodeSuppliedRatioRecorder, NumpyArrayNodeCurtailmentRatioRecorder"]}
{"id": "C59", "title": "Annual totals split flows at year ends", "statement": "The annual total flow recorder's yearly totals add up to the total volume of the run, each year receiving the part of every timestep that lies in it.", "quantifier": "every run, every timestep length up to a year", "why_tests_cant": "Unbounded histories, boundary-straddling timesteps.", "anchors": ["pywr/recorders/_recorders.pyx: AnnualTotalFlowRecorder.after"]}
{"id": "C60", "title": "Polynomial, interpolation and activation parameters", "statement": "The polynomial parameters evaluate the polynomial with the given coefficients at the scaled input; activation-function parameters map decision variables to values between the documented minimum and maximum.", "quantifier": "every coefficient list and input", "why_tests_cant": "Continuous domain.", "anchors": ["pywr/parameters/_polynomial.pyx", "pywr/parameters/_activation_functions.pyx"]}
{"id": "C61", "title": "Reported flows", "statement": "After every timestep the flow of an input, output or link is the sum of the flows the solver committed to it in this timestep, the flow of a storage is what entered minus what left it, and the flow of a composite or aggregated node is the (weighted) sum of the flows its members report after the same timestep.", "quantifier": "every model graph and order of nodes, every sequence of commits, every previous state", "why_tests_cant": "All graph orders and commit sequences.", "anchors": ["pywr/_core.pyx: commit, before, after of every node class", "pywr/nodes.py: PiecewiseLink.after, BreakLink.after, DelayNode.after, LossLink.after", "pywr/_model.pyx: Model.after"]}
{"id": "C62", "title": "Aggregated storage tracks its members", "statement": "In every run the volume of an aggregated storage stays within 2e-6 per timestep and storage of the sum of the volumes of its storages, and at the start of every run it is the sum of the volumes to which they are reset. Its fraction at the end of a timestep is its volume over the sum of their maximum volumes.", "quantifier": "every run length, every number of storages", "why_tests_cant": "Accumulated over unbounded histories.", "anchors": ["pywr/_core.pyx: AggregatedStorage.after, Storage.after"]}
{"id": "C63", "title": "Storage recorders", "statement": "After a run the minimum-volume recorder holds for every scenario the least volume of the run, the minimum-threshold recorder 1 exactly for the scenarios whose volume was at or below the threshold in some timestep, and the normalised storage is -1 when empty, 0 at the control curve, 1 when full, increasing and linear in between.", "quantifier": "every volume history, every control curve between 0 and 1", "why_tests_cant": "Unbounded histories, continuous domain with degenerate control curves.", "anchors": ["pywr/recorders/_recorders.pyx: MinimumVolumeStorageRecorder, MinimumThresholdVolumeStorageRecorder, NumpyArrayNormalisedStorageRecorder"]}
{"id": "C64", "title": "Rolling recorders", "statement": "At every timestep a rolling-window recorder stores the aggregate (mean by default) of the last N values of its parameter (or flow of its node), of all values while fewer than N timesteps have run, regardless of what earlier runs left behind.", "quantifier": "every history, window length, aggregation function and previous memory content", "why_tests_cant": "Ring-buffer arithmetic over unbounded histories.", "anchors": ["pywr/recorders/_recorders.pyx: RollingWindowParameterRecorder, RollingMeanFlowNodeRecorder"]}
{"id": "C65", "title": "Splits divide the flow in the given ratio", "statement": "A MultiSplitLink/RiverSplit with a factor for every outlet delivers, in every feasible allocation, the flow entering it (beyond what its first segments take) to its outlets in the ratio of the factors; nothing is lost, and each outlet is reached under its slot name and no other.", "quantifier": "every number of segments and outlets, every factors and slot names, every network around it, every feasible solution of the linear programme", "why_tests_cant": "All feasible allocations of the linear programme.", "anchors": ["pywr/nodes.py: MultiSplitLink", "pywr/domains/river.py: RiverSplit, RiverSplitWithGauge"]}
{"id": "C66", "title": "Optimisation wrappers set the variables and report feasibility", "statement": "Evaluating a decision vector sets every variable parameter, in order, from its own slice of the vector: doubles as given, integers to the nearest integer, never outside their bounds when the vector is within the declared bounds; the vector read off the current configuration reproduces the configuration; a given initial solution is used as it is apart from clipping to the bounds. The first population has the current configuration first, once, then the given solutions in their order, then random ones. The constraints declared to the optimiser are satisfied by the returned values exactly when the model is feasible, and smaller objective values are better ones.", "quantifier": "every list of variable parameters of every size, every decision vector, every set of recorder bounds and every result of the run", "why_tests_cant": "All sizes and bounds; continuous domain, values at the bounds, infinite bounds and NaN.", "anchors": ["pywr/optimisation/__init__.py: cache_variable_parameters", "pywr/optimisation/platypus.py: PlatypusWrapper, PywrRandomGenerator", "pywr/optimisation/pygmo.py: PygmoWrapper"]}
{"id": "C67", "title": "Parameters as optimisation variables", "statement": "Setting the variables of a parameter to values of the declared number is accepted and reading them returns exactly these values; setting the current variables changes nothing; values within the bounds a parameter declares are always accepted. After the next reset the parameter has on every date the values of a newly constructed parameter with these variables, none of the previous ones. Days of the year of an RBF profile are accepted exactly if they start at 1, are at least three, increase and end by day 365; its values stay within its caps.", "quantifier": "every variable parameter, every vector of variables, every date of every year, every history of calls", "why_tests_cant": "All vectors and sequences of calls; dates at the end of February, days at the declared bounds.", "anchors": ["pywr/parameters/_parameters.pyx: ConstantParameter, OffsetParameter, MonthlyProfileParameter, RbfProfileParameter, AnnualHarmonicSeriesParameter", "pywr/parameters/_activation_functions.pyx", "pywr/parameters/_control_curves.pyx: ControlCurveParameter"]}
{"id": "C68", "title": "Writing fixed values once does not change the problem", "statement": "The options set_fixed_flows_once, set_fixed_costs_once and set_fixed_factors_once of the GLPK solvers change only when values are written: the linear programme solved in every timestep and scenario, its rows and its objective, is the one with the values the model has at that moment, also after constant values were changed between runs.", "quantifier": "every model, every combination of the options, every history of setups, resets and solves, every change of values between runs", "why_tests_cant": "All histories of changes and runs.", "anchors": ["pywr/solvers/cython_glpk.pyx: setup, reset, _update_nonstorage_constant_bounds, _update_constant_agg_factors, _solve_scenario", "pywr/_core.pyx: has_fixed_cost, has_constant_flows, get_constant_min_flow, get_constant_max_flow, has_constant_factors, get_factors_norm"]}
{"id": "C69", "title": "Coupled models see each other's values of the right timestep", "statement": "In a multi-model run, whatever a sub-model reads from an earlier sub-model in a timestep (parameter, index, flow, volume, shadow nodes) is what that model left at the end of the same timestep; from a later sub-model what it left at the end of the previous timestep; for the same scenario combination. Models with different scenario combinations are refused. A coupled document gives every sub-model its dates, timestep length and solver, and its sub-models are run in the order given.", "quantifier": "every list of sub-models, every timestep, every behaviour of their nodes, parameters and recorders, every document", "why_tests_cant": "All interleavings of arbitrarily many models and timesteps.", "anchors": ["pywr/model.py: MultiModel", "pywr/parameters/multi_model_parameters.py", "pywr/_core.pyx: ShadowStorage, ShadowNode"]}
{"id": "C70", "title": "Output files hold the values of every timestep", "statement": "After a run, row k of every array of the HDF output file holds the values of timestep k, for every timestep and whatever the buffer size; after an exception, all completed timesteps are in the file and rows not reached are untouched. The cell at a position of the scenario dimensions belongs to the combination of the members selected there, data frames made from the file label the columns with these members, and the items recorded are the ones asked for.", "quantifier": "every number of timesteps, every buffer size, every point at which the run stops, single and coupled runs, every scenario selection, every list of nodes", "why_tests_cant": "All combinations of run length, buffer length and stopping point.", "anchors": ["pywr/recorders/_tables_recorders.pyx: TablesRecorder2.setup, reset, after, flush_buffer, finish, generate_dataframes", "pywr/recorders/recorders.py: TablesRecorder"]}
{"id": "C71", "title": "Results are labelled with the ensemble members they were computed for", "statement": "The label of a column of results (the scenario multi-index of recorder data frames) names, for every scenario, the ensemble member that the values in this column were computed for, after any sequence of adding scenarios, changing slices, user-defined combinations and member names, setting up and running.", "quantifier": "every history of changes of the scenarios and runs, every selection of members", "why_tests_cant": "All histories of changes and runs.", "anchors": ["pywr/_core.pyx: Scenario, ScenarioCollection.setup, user_combinations, multiindex", "pywr/_model.pyx: run, setup", "pywr/recorders/_recorders.pyx: to_dataframe"]}
{"id": "C72", "title": "Event durations and statistics summarise exactly the events of each scenario", "statement": "The value of an event duration recorder in a scenario is the aggregate of the lengths in days of the scenario's events, that of an event statistic recorder the aggregate of the tracked values over its events; NaN if there are none. In particular, summed durations of daily timesteps count the timesteps in which the trigger was on, and summed statistics add up the tracked parameter over exactly these timesteps.", "quantifier": "every trigger history in every scenario, every aggregation function, every calendar", "why_tests_cant": "Unbounded histories and arbitrary aggregation functions.", "anchors": ["pywr/recorders/events.py: EventDurationRecorder, EventStatisticRecorder"]}
{"id": "C73", "title": "Parameters computed from other parameters have the value of their definition", "statement": "In every timestep, every parameter computed from other parameters (negative, maximum, minimum, offset, scaled, division, aggregated, indexed array, scenario wrapper, interpolation, quadrature, user-defined) has, in every scenario, the value its definition gives on the values its parameters have in that timestep and scenario - whatever was computed before, in whatever order the parameters were created, and after any re-wiring through the setters. A model whose parameters are only constructed is never refused for a cycle.", "quantifier": "every set of parameters referring to each other, every history of constructors and setters, every scenario", "why_tests_cant": "All dependency structures and all sequences of changes.", "anchors": ["pywr/parameters/_parameters.pyx: NegativeParameter, MaxParameter, MinParameter, NegativeMaxParameter, NegativeMinParameter, OffsetParameter, DivisionParameter, AggregatedParameter, IndexedArrayParameter, ScenarioWrapperParameter", "pywr/parameters/parameters.py: ScaledProfileParameter, AbstractInterpolatedParameter, InterpolatedQuadratureParameter", "pywr/_component.pyx: Component"]}
{"id": "C74", "title": "Parameters with a value per ensemble member", "statement": "A parameter with a value or profile for each member of a scenario (constant, monthly, weekly or daily profile, monthly factors, wrapper of parameters) has, in every scenario combination, the value of the corresponding parameter without scenario made from the row of that combination's member of its scenario - whatever other scenarios there are and however the combinations are selected; and such a value exists on every date.", "quantifier": "every set of scenarios, every selection of combinations, every table, every date", "why_tests_cant": "All scenario selections and dates.", "anchors": ["pywr/parameters/_parameters.pyx: ConstantScenarioParameter, ArrayIndexedScenarioMonthlyFactorsParameter, ScenarioMonthlyProfileParameter, ScenarioWeeklyProfileParameter, ScenarioDailyProfileParameter, ScenarioWrapperParameter", "pywr/_core.pyx: ScenarioCollection.get_scenario_index"]}
{"id": "C75", "title": "Duration curves are the percentiles of the recorded flows or volumes", "statement": "After a complete run a duration curve recorder holds, for every percentile asked for and every scenario, that percentile (linear interpolation between order statistics) of the scenario's values over all timesteps, for the seasonal recorder over exactly the timesteps in the months of the season. Curves do not fall with the percentile, run from the least to the greatest value and do not depend on the order in time. The deviation from target curves is the least fraction by which the targets have to be widened to contain the curve, for the target of the scenario's ensemble member.", "quantifier": "every history of flows, every list of percentiles and months, every targets and scenario selection", "why_tests_cant": "Arbitrary-length histories, continuous domain, all scenario selections.", "anchors": ["pywr/recorders/_recorders.pyx: FlowDurationCurveRecorder, SeasonalFlowDurationCurveRecorder, FlowDurationCurveDeviationRecorder, StorageDurationCurveRecorder"]}
{"id": "C76", "title": "Comparison with observed flows", "statement": "The errors reported by the comparison recorders (mean absolute, mean squared, root mean squared) are not negative, zero exactly for simulations equal to the observations in every timestep, and ordered (mean absolute error at most root mean squared error); the percentage bias relates the totals; the Nash-Sutcliffe efficiency is at most 1, 1 exactly for perfect simulations, not negative exactly for simulations no worse than the observed mean, and 1 minus the squared RMSE-to-standard-deviation ratio. Every scenario is compared with the observations on its own.", "quantifier": "every series of observed and simulated flows, every number of scenarios", "why_tests_cant": "Continuous domain, arbitrary-length series.", "anchors": ["pywr/recorders/calibration.py"]}
{"id": "C77", "title": "Time series are brought to the timesteps of the model as means over days", "statement": "A data frame that is accepted gives one value per timestep: the mean, over the days of the timestep, of the data for each day (the row or calendar period the day belongs to); no timestep gets a value without data. Data that cover every day of the run, with rows (or, for coarser data, timesteps) aligned to its first day, are accepted.", "quantifier": "every series, start, length of rows and timesteps (multiples of each other), months or other calendar periods, missing values", "why_tests_cant": "Arbitrary lengths, offsets, gaps and calendars.", "anchors": ["pywr/dataframe_tools.py: align_and_resample_dataframe"]}
{"id": "C78", "title": "Licences over a whole run, and licences used as costs", "statement": "A storage licence gives in every timestep what is left of the licensed amount, and a node that takes no greater volume takes at most the amount over the run. What remains of an annual licence stays between zero and the annual amount. The exponential and hyperbola licences give the documented value when the licence is on track, fall as more remains, stay within the documented range and give their greatest value (infinity for the hyperbola) when nothing remains.", "quantifier": "every history of flows, every amount, scale and date", "why_tests_cant": "Continuous domain, arbitrary histories of abstraction.", "anchors": ["pywr/parameters/licenses.py: StorageLicense, AnnualExponentialLicense, AnnualHyperbolaLicense"]}
{"id": "C79", "title": "A break link can be used in place of a link", "statement": "Replacing a link by a break link with the same limits and cost does not change what a model can do: the feasible flows of all other nodes, and the least cost, are the same, as much water leaves the internal storage as enters it, and its volume stays zero.", "quantifier": "every model, every link in it, every feasible solution, runs of every length", "why_tests_cant": "Equivalence of two constraint systems for arbitrary networks.", "anchors": ["pywr/nodes.py: BreakLink", "pywr/solvers/cython_glpk.pyx: CythonGLPKSolver, CythonGLPKEdgeSolver"]}
{"id": "C80", "title": "Interpolated parameters follow the given points", "statement": "An interpolated parameter (of another parameter, of a volume, of a flow) has the given value at each given point and the mean weighted by distance between neighbouring points, whatever the order of the points; it never leaves the range of the given values, it increases if the data increase, interpolating back returns the original number, and it is defined exactly between the outermost points; points covering the range of a storage therefore never stop a run.", "quantifier": "all tables of points with distinct first coordinates, all numbers to interpolate, runs of every length", "why_tests_cant": "Statements over all tables and all arguments, including every point of every run.", "anchors": ["pywr/parameters/parameters.py: AbstractInterpolatedParameter, InterpolatedParameter, InterpolatedVolumeParameter, InterpolatedFlowParameter"]}
{"id": "C81", "title": "Aquifer streams follow the level of the aquifer", "statement": "A Keating aquifer is accepted exactly when its arguments fit together; its volumes are those of the slices between the levels; setting the initial level starts a run at that level; in every timestep every stream takes exactly Keating's flow for the level at the start of the timestep (dry exactly when no outlet is below the level, never less with more water), and the level is defined throughout every run.", "quantifier": "all levels, storativities, transmissivities and outlets, all volumes, runs of every length, all solutions admitted by the constraints", "why_tests_cant": "Involves a round trip through two interpolations, a sum over any number of outlets, and every feasible solution.", "anchors": ["pywr/domains/groundwater.py: KeatingAquifer", "pywr/parameters/groundwater.py: KeatingStreamFlowParameter"]}
{"id": "C82", "title": "A node in a document is the node its constructor makes", "statement": "Loading a node from a document gives the same node, attribute by attribute, as calling its constructor with the same arguments (references replaced by the parameters), whatever the entries and their order, and is refused exactly if a reference is unknown or the constructor refuses the arguments. The attributes are the arguments: defaults where left out, no limit where null; a catchment's flow is both of its limits; a gauge's first link carries the residual flow; a reservoir costs its above-curve cost above the curve.", "quantifier": "all sets of entries in any order, all values and references, all numbers of steps and slots", "why_tests_cant": "The two ways of making a node run different code in a different order; agreement for all combinations of entries and their orders can not be enumerated.", "anchors": ["pywr/nodes.py: Loadable, Node, Storage, VirtualStorage, PiecewiseLink, MultiSplitLink, AggregatedNode, LossLink", "pywr/domains/river.py", "pywr/domains/groundwater.py: KeatingAquifer"]}
{"id": "C83", "title": "Rivers: catchments give their flow, gauges serve the residual flow first", "statement": "In every solution a catchment or discharge gives exactly the flow last assigned to it, whatever limits its constructor was given; if that flow is negative there is no solution. A river gauge whose residual flow (MRF) is cheaper than the rest carries, in every optimal solution, the water passing it up to the MRF in its MRF segment and only the remainder beyond, for the MRF and costs last assigned; if the MRF is dearer its segment is never used. A discharge in line adds its flow to the water passing it.", "quantifier": "all networks, flows, costs, histories of assignments, and all (optimal) solutions of either solver", "why_tests_cant": "The split between the segments is decided by the optimiser over the whole network; tests check it on a few networks and flows.", "anchors": ["pywr/domains/river.py: Catchment, Discharge, RiverGauge", "pywr/nodes.py: PiecewiseLink", "pywr/solvers/cython_glpk.pyx"]}
{"id": "C84", "title": "The lp_solve solver and the GLPK route solver solve the same problem", "statement": "For a model without the features one of them lacks, in a state where no storage holds more than its maximum volume, the linear program the lp_solve solver builds has exactly the same solutions, costs and reported flows as the one the GLPK route solver builds, so that choosing a solver does not change which results are optimal; and limits and factors of aggregated nodes are those in force in the timestep being solved.", "quantifier": "all networks, routes, flow limits, costs, volumes, timesteps and all assignments of flows", "why_tests_cant": "The two solvers write their rows in different places and with different conventions; comparing outputs on sample models cannot show that every feasible point and optimum coincide.", "anchors": ["pywr/solvers/cython_lpsolve.pyx:68-598", "pywr/solvers/cython_glpk.pyx: CythonGLPKSolver"]}
{"id": "C85", "title": "No scenario feels another through the solver", "statement": "In a run with several scenarios every scenario has in every timestep exactly the flows it has in a run of its own (or of any subset of the scenarios, in any order), although the solver uses one problem object and carries a basis from one solve to the next; a set of scenarios can be run together if each can be run alone; and running again after a reset gives what the first run gave, whatever happened to the solver in between.", "quantifier": "all deterministic GLPKs, numbers and orders of scenarios, numbers of timesteps, problems depending in any way on the scenario's own past, and all previous uses of the solver", "why_tests_cant": "Where several solutions are optimal the one returned depends on the starting basis, so that a leak between scenarios shows only in degenerate problems; tests compare a few runs.", "anchors": ["pywr/solvers/cython_glpk.pyx:153-232, 738-759, 820-831, 1025-1063, 1849-1886"]}
{"id": "C86", "title": "Profiles combined over storages, and profiles recorded in a run", "statement": "A weighted average profile has on every date of every year the average of its profiles' own values on that date weighted by the maximum volumes of their storages (so it lies between them); every storage given counts, and a constant maximum volume may be a parameter. A recorded daily profile holds for each calendar day the value of the last timestep on it, and used as a daily profile reproduces the recorded parameter on every calendar day that occurred, in any year.", "quantifier": "all numbers of storages, volumes, profiles (constant, daily, monthly stepped or interpolated), dates, run lengths and scenarios", "why_tests_cant": "Tests compare a few days of one year; alignment at 29 February and around it in other years is not enumerable.", "anchors": ["pywr/parameters/_control_curves.pyx: WeightedAverageProfileParameter", "pywr/recorders/_recorders.pyx: NumpyArrayDailyProfileParameterRecorder", "pywr/parameters/_parameters.pyx: MonthlyProfileParameter.get_daily_values"]}
{"id": "C87", "title": "The CSV recorder's file is the run", "statement": "Whatever happened before (and whatever the file held), after a run the CSV file holds the header followed by one row per timestep in order: the date and, under each name, the volume of that storage or the flow of that node in the chosen scenario. If the process dies at any moment the file is a beginning of this text. Without a list of nodes the columns are all nodes in alphabetical order. The documented options for the csv writer are honoured.", "quantifier": "all histories of the recorder (setups, resets, timesteps, finished or not), all moments at which the file object passes on buffered text, all crash points, all nodes and values", "why_tests_cant": "When the buffer reaches the disk, and what an earlier unfinished use left open, depend on history and schedule; tests read the file once after one clean run.", "anchors": ["pywr/recorders/recorders.py: CSVRecorder"]}
{"id": "C88", "title": "A whole simulation keeps limits, volumes and balance, whichever solver runs it", "statement": "Take any network, any number of scenarios, any parameters (which may depend on everything that happened so far, in all scenarios) and any run of any length in which each timestep the parameters are evaluated, the solver returns any solution of the problem it was given, the flows are committed and the volumes updated. Then every node's flow respects the limits of that timestep; every reservoir that starts within its bounds stays within them; over the run the change of all stored water is what came in from outside less what left (times the days); every virtual storage falls, from its last refill, by what its nodes used while it was active (volumes within 1e-6 of a bound are put at the bound). This holds in every scenario; if parameters look only at their own scenario, the scenarios of a model run exactly as each would alone. Where both solvers apply to the model, the runs possible with the route solver are exactly the runs possible with the edge solver, also when both return solutions of least cost; if the least-cost flows are unique the results are the same.", "quantifier": "all networks, all parameters as functions of the history, all numbers of timesteps, all choices among the solver's solutions", "why_tests_cant": "Tests run a few models for a few timesteps with one solver's choice; the claim is about every history, and errors in the interplay of solver rows, commits and volume updates show only over a run.", "anchors": ["pywr/_model.pyx: step", "pywr/solvers/cython_glpk.pyx: CythonGLPKSolver, CythonGLPKEdgeSolver", "pywr/_core.pyx: Storage.after, VirtualStorage.after, Node.commit"]}
{"id": "C89", "title": "Recorded levels, threshold states and discount factors", "statement": "The volume recorder has in row t the volume at the end of timestep t. The level and area recorders have in row t what the solver and the other parameters were given in timestep t, which is the level of the volume at the beginning of t (not that of row t of the volume recorder). The state of a threshold recorder is the comparison of the last volume or flow, and a threshold parameter on the same storage, the same node or the volume recorder has this state as its index in the next timestep. Thresholds on the year or day with 'at or after' switch once and stay, with ratchet or without. A discounted amount that has grown from the base year is the amount.", "quantifier": "all runs, all volumes and flows, all level functions, all predicates, thresholds and combinations, all rates above -1 and years", "why_tests_cant": "Which timestep a recorded number belongs to shows only over a run with changing volumes; the agreement of three ways to compare must hold for every history.", "anchors": ["pywr/_core.pyx: Storage.level, Storage.area", "pywr/recorders/_recorders.pyx: NumpyArrayLevelRecorder, NumpyArrayAreaRecorder, NumpyArrayNodeCostRecorder", "pywr/recorders/_thresholds.pyx", "pywr/parameters/_thresholds.pyx", "pywr/parameters/_parameters.pyx: DiscountFactorParameter"]}
{"id": "C90", "title": "Data from tables and files are the ones asked for; types are found by name", "statement": "A column and an index of a table select the value in that row and column, whatever the order of rows and columns in the file; a column its values in the order of the rows; lists of columns and rows the table of these, in the order asked for; missing labels give a KeyError. A file is read only after every checksum of the entry has been compared with this very file and agrees; with a mismatch nothing is read. The type of a file depends on what follows the last dot of its path. A parameter or recorder class is found by its name in upper or lower case, with the ending Parameter (Recorder) or without, and unknown types are refused.", "quantifier": "all tables, labels, paths, checksums and registries of classes", "why_tests_cant": "Tests use a few files and types; that the order of rows is irrelevant, that no unverified file is ever read and that no name finds the wrong class are claims over all inputs.", "anchors": ["pywr/dataframe_tools.py: load_dataframe, read_dataframe", "pywr/parameters/_parameters.pyx: get_parameter_from_registry", "pywr/recorders/_recorders.pyx: load_recorder"]}
{"id": "C91", "title": "An evaluation in an optimisation depends only on the candidate solution", "statement": "However many candidates were evaluated before with a wrapper, in whichever worker processes (with an empty cache, or one copied from the parent), whether those evaluations succeeded or ended with an exception half way through setting the variables or running, and wherever the cache was cleared in between: evaluating a candidate gives the objectives and constraints that a model just loaded from the wrapper's document gives for it. A candidate of the right length is always evaluated.", "quantifier": "all documents, variables, histories of evaluations, forks and clearings over any number of processes and wrappers", "why_tests_cant": "A test evaluates a few candidates in one process; independence from every history, including failed evaluations, is a claim over all sequences of events.", "anchors": ["pywr/optimisation/__init__.py: BaseOptimisationWrapper._cached, clear_global_model_cache", "pywr/optimisation/platypus.py: PlatypusWrapper.evaluate"]}
{"id": "C92", "title": "Memories of parameters and the nodes are forgotten together", "statement": "In a model with any number of parameters that remember something (delayed flows, rolling means, flows and deficits of the previous timestep, thresholds with ratchets, licences for a run or a year, recorded values used as thresholds), in any order of dependence, whose values decide the flows which they remember in turn: whatever was run before, and however far, after a reset every timestep has the flows, volumes and parameter values of the first run.", "quantifier": "all models of nodes and such parameters, all runs before, all memories left by them, all lengths of runs", "why_tests_cant": "Tests run a model twice with one parameter; that nothing is left over in the feedback between flows and any combination of memories is a claim over all models and histories.", "anchors": ["pywr/_model.pyx: Model.reset, Model.before, Model.after", "pywr/parameters/_parameters.pyx: FlowDelayParameter, RollingMeanFlowNodeParameter, FlowParameter, DeficitParameter", "pywr/parameters/_thresholds.pyx: AbstractThresholdParameter", "pywr/parameters/licenses.py: StorageLicense, AnnualLicense"]}
{"id": "C93", "title": "Aggregation functions given by name, dictionary or callable; percentiles and scores across scenarios", "statement": "An aggregation function given by one of the documented names (as a string in any case) means that function; what is read back from the aggregator can be assigned again with the same effect; a refused assignment changes nothing. A percentile across scenarios is the linearly interpolated percentile of the values that are numbers; a percentile of score is the percentage of smaller values, of values not greater, their average, or the average rank of the equal ones, lies between 0 and 100 and does not fall when the score rises or depend on the order of the scenarios; along time each column is treated by itself.", "quantifier": "all names, dictionaries and callables, all sequences of assignments, all arrays with and without NaN, all percentiles, scores and kinds", "why_tests_cant": "Tests try a few names and one percentile on small arrays; the order, the bounds, the treatment of NaN and the effect of assignments after each other are claims over all arrays and histories.", "anchors": ["pywr/recorders/_recorders.pyx: Aggregator.func", "pywr/recorders/_recorders.pyx: Aggregator.aggregate_1d", "pywr/recorders/_recorders.pyx: Aggregator.aggregate_2d"]}
{"id": "C94", "title": "Checking a model finds the isolated nodes and the unused parameters", "statement": "check_graph raises exactly when a node that may not be isolated is on no simple path from an input to an output (through inputs, links and outputs of one domain); a node on none of the solver's routes never has flow. find_orphaned_parameters reports exactly the parameters on which no component depends and to which no node refers; such a parameter influences no value of another component. check raises exactly for these nodes and for virtual storages with a cost.", "quantifier": "all graphs of nodes, all classes, domains and flags, all histories of the component graph, all parameters", "why_tests_cant": "Tests check two small graphs and two orphans; that nothing is missed or reported wrongly is a claim over all graphs and histories of components.", "anchors": ["pywr/_model.pyx: Model.check", "pywr/_model.pyx: Model.check_graph", "pywr/_model.pyx: Model.find_orphaned_parameters", "pywr/_core.pyx: AbstractNode.components"]}
{"id": "C95", "title": "Components have distinct names and the collections find them", "statement": "After any history of creating and renaming components no two have the same name; looking a name up in model.components, parameters, recorders, variables, constraints or objectives finds the one component of that kind with the name and raises a KeyError if there is none; the collections list every component of their kind once in the order of creation. A component deleted from a collection is gone; a constructor that fails leaves nothing behind; giving a component the name it has is no error.", "quantifier": "all histories of constructors (failing or not), renamings, deletions and assignments, all names", "why_tests_cant": "Tests create a few components; that names stay distinct and lookups find the right one holds over all histories.", "anchors": ["pywr/_component.pyx: Component.__init__", "pywr/_component.pyx: Component.name", "pywr/_model.pyx: Model.components", "pywr/_model.pyx: Model.parameters", "pywr/_model.pyx: NamedIterator", "pywr/recorders/_recorders.pyx: Recorder.__init__"]}
{"id": "C96", "title": "The solvers' flat arrays hold the problem and are not overrun", "statement": "The GLPK solvers keep costs, rows with factors, edge costs and flows in flat arrays addressed without checks of the indices. Whatever the network, whatever was in the arrays before and whatever factors earlier solves used, the costs, rows and flows read out of them are those of the nodes; no access is outside an array or outside the memory asked for.", "quantifier": "all networks, routes and edges, all contents of the arrays before, all histories of factors, all numbers of columns", "why_tests_cant": "Out-of-bounds accesses in compiled code usually do not show in a test; stale entries show only after particular histories.", "anchors": ["pywr/solvers/cython_glpk.pyx: CythonGLPKSolver.setup", "pywr/solvers/cython_glpk.pyx: CythonGLPKSolver._solve_scenario", "pywr/solvers/cython_glpk.pyx: CythonGLPKEdgeSolver.setup", "pywr/solvers/cython_glpk.pyx: CythonGLPKEdgeSolver._solve_scenario", "pywr/_core.pyx: AggregatedNode.factors"]}
{"id": "C97", "title": "Bad numbers and failed solves stop the run, and nothing is half done", "statement": "A NaN among the costs, factors, limits or volumes that matter in a timestep stops the run with an error instead of entering the linear programme, and nothing else does; flows are taken only from an attempt that was optimal. A timestep in which one scenario fails changes nothing that a caller who catches the error would see.", "quantifier": "all numbers of the nodes and parameters (infinities and NaN included), all outcomes of the attempts to solve, any number of scenarios, any scenario failing", "why_tests_cant": "Tests try one NaN at a time in small models; the state after an error is hardly ever looked at.", "anchors": ["pywr/solvers/cython_glpk.pyx: CythonGLPKSolver._solve_scenario", "pywr/solvers/cython_glpk.pyx: set_row_bnds_safe", "pywr/solvers/cython_glpk.pyx: set_obj_coef_safe", "pywr/_model.pyx: Model._step", "pywr/_model.pyx: Model.step"]}
{"id": "C98", "title": "Loading a document gives exactly what it says", "statement": "Loading a document makes one node of every entry, with references and edges resolved by name, whatever the order of the entries, and changes nothing else; a document that cannot be loaded (unknown or used names, unknown types, circles of references, malformed edges) raises an exception, and loading always ends. Arguments of the call count for more than the document.", "quantifier": "all documents (any number of nodes, references between them, sub-nodes, edges and slots), all models they are added to, all arguments", "why_tests_cant": "Tests load particular documents, written in the order that works; orders, circles, names used twice and documents added to a model are too many to try.", "anchors": ["pywr/_model.pyx: Model.load_from_dict", "pywr/_model.pyx: Model.pre_load_node", "pywr/_model.pyx: Model.finalise_node", "pywr/nodes.py: Loadable.pre_load", "pywr/nodes.py: Loadable.finalise_load", "pywr/_model.pyx: NodeIterator.__getitem__"]}
{"id": "C99", "title": "Diagrams of the routes show the flow of the routes", "statement": "A Sankey diagram made from an output file has one link for every two places between which a route is drawn, and its value is the sum of the mean flows of these routes over the timesteps and scenarios; no flow is lost or shown twice, so the values add up to the mean total flow; one timestep or scenario can be selected, and the aggregation can be chosen.", "quantifier": "all route tables (any number of routes, several with the same ends, parts of compound nodes), all flows, timesteps, scenarios, thresholds, filters and renamings", "why_tests_cant": "Tests look at single files with the default arguments; sums over arbitrary sets of routes and the effect of each argument need all inputs.", "anchors": ["pywr/notebook/sankey.py: routes_to_sankey_links", "pywr/recorders/_tables_recorders.pyx: TablesRecorder.setup", "pywr/recorders/_tables_recorders.pyx: TablesRecorder.after"]}
{"id": "C100", "title": "Diagrams of the network show the nodes and how they are joined", "statement": "The diagram of a model has one box for every node that is neither virtual nor part of another one, and joins two boxes exactly if an edge joins them or parts of them; it can be made exactly if all ends of edges are shown. The diagram of a document has the same boxes and links as that of the model it describes, and can show the items of its nodes. In both a box gets its looks from the classes of its node: its class and all classes of nodes from which this is derived, the general before the special.", "quantifier": "all graphs with compound nodes and virtual nodes, all documents that describe them, all attributes", "why_tests_cant": "Tests compare the diagram of one model with a stored file; which networks and documents can be drawn, and whether the two kinds of diagram agree, concerns all of them.", "anchors": ["pywr/notebook/__init__.py: pywr_model_to_d3_json", "pywr/notebook/__init__.py: pywr_json_to_d3_json"]}
{"id": "C101", "title": "The estimated probability of a low volume is a probability", "statement": "After a run, the kernel density recorder of a storage gives the probability of a volume of at most the target: the average over all recorded volumes of the mass that a normal distribution around each, with the width of Scott's rule, gives to the volumes up to the target, where what leaves the range at either end is folded back. It is between zero and one, zero for a target of zero and grows with the target; the density is the one whose integral it is. The same for normalised volumes.", "quantifier": "all lists of recorded volumes, all targets, any number of points, with and without reflection", "why_tests_cant": "Tests compare with one sample distribution up to a tolerance; that the result is a probability, monotone in the target, and agrees with the density, concerns all samples.", "anchors": ["pywr/recorders/kde.py: GaussianKDEStorageRecorder", "pywr/recorders/kde.py: NormalisedGaussianKDEStorageRecorder"]}
{"id": "C102", "title": "Recorders that watch a run say what happens", "statement": "A run with an assertion recorder passes exactly if, for every timestep and scenario, there is an expected value and the parameter differs from it by at most the tolerance; otherwise the first timestep and scenario that differs is named. Progress messages have growing percentages between 0 and 100, the last one after each timestep is that of the timesteps completed so far, and the bar ends as a success exactly if all timesteps were completed.", "quantifier": "all expected functions and tables, all values, any number of timesteps and scenarios, interruptions after any timestep, all clocks", "why_tests_cant": "Tests use recorders of this kind rather than test them; runs of any length and interruptions at any point need a proof.", "anchors": ["pywr/recorders/recorders.py: AssertionRecorder", "pywr/recorders/progress.py: ProgressRecorder", "pywr/recorders/progress.py: JupyterProgressRecorder"]}
{"id": "C103", "title": "The dependencies of a component follow its attributes", "statement": "After any sequence of assignments of parameters, numbers or None to the attributes of a component that take parameters (hydropower targets and recorders, thresholds, attributes made by parameter_property, lists of control curves), the component depends exactly on the components it refers to; an assignment takes effect for the assigned attribute only and does not fail because of earlier ones.", "quantifier": "all histories of assignments, also with exceptions in between, all lists of control curves, the same parameter in several places", "why_tests_cant": "Tests assign each attribute once; lost dependencies appear only after particular sequences of assignments, and then only as values that are one timestep old.", "anchors": ["pywr/parameter_property.py: parameter_property", "pywr/parameters/_hydropower.pyx: HydropowerTargetParameter", "pywr/recorders/_hydropower.pyx: HydropowerRecorder.water_elevation_parameter", "pywr/parameters/_thresholds.pyx: AbstractThresholdParameter.threshold", "pywr/parameters/_control_curves.pyx: BaseControlCurveParameter.control_curves", "pywr/parameters/_control_curves.pyx: ControlCurveIndexParameter.control_curves"]}
{"id": "C104", "title": "Everything recorded is in its own place of the output file", "statement": "TablesRecorder and TablesRecorder2: every node and parameter given is written, at every path it is given for, to an array of its own; arrays and tables do not replace each other; whatever cannot be placed raises when the file is made or at the first timestep. The tables of scenarios describe the combinations of the run, and generate_dataframes gives every array once under a name of its own. Adding and removing parameters keeps what is recorded and the dependencies in step.", "quantifier": "all lists of items and paths, both versions, all histories of resets and timesteps, all scenarios, slices and combinations, all histories of added and removed parameters", "why_tests_cant": "Tests record a handful of differently named nodes once each, with default paths; which items share a path, a prefix of a path or a name depends on the names in a model.", "anchors": ["pywr/recorders/recorders.py: TablesRecorder", "pywr/recorders/_tables_recorders.pyx: TablesRecorder2", "pywr/h5tools.py: H5Store"]}
{"id": "C105", "title": "A parameter in a document is the parameter its constructor makes", "statement": "Loading a parameter (control curves, thresholds, polynomials, aggregates, parameters of parameters and nodes, licences, hydropower targets) from a document gives the object that its constructor makes from the arguments the entries stand for: names of nodes and parameters stand for these, other values for themselves, a missing entry for the default; whatever the constructor refuses is refused, and unknown or missing entries too. The constructor takes its arguments with their documented defaults and keeps each of them in the form described for it. An accepted parameter has as many values as its control curves need. A refused parameter leaves the model as it was.", "quantifier": "all mappings, in any order of the keys, all models, 23 classes of parameters, all sets of names already in use", "why_tests_cant": "A test loads one well-formed document per class; which entries are converted, ignored, refused or given another default than in the constructor depends on the combination of keys and kinds of values.", "anchors": ["pywr/parameters/_control_curves.pyx: load, __init__", "pywr/parameters/_thresholds.pyx: load, __init__", "pywr/parameters/_polynomial.pyx: load", "pywr/parameters/_hydropower.pyx: load", "pywr/parameters/_parameters.pyx: load_parameter, IndexedArrayParameter, AggregatedParameter, DivisionParameter, \u2026", "pywr/_component.pyx: Component.__init__"]}
{"id": "C106", "title": "An attribute of a node has one value, however it is asked for", "statement": "A cost, flow limit, volume limit, level or area of a node or storage is the number or parameter last assigned; asking for one combination of scenarios, for all at once, for the constant or the fixed value gives the same; the ends of a storage cost minus and plus the cost of the storage, an aggregated storage has the sums of the volumes of its storages; committing flows for all combinations at once is committing them one by one, for the storage too. A refused assignment changes nothing, and None stands for the default.", "quantifier": "all histories of accepted and refused assignments, all numbers of combinations, all values of parameters, all lists of storages, any content of the array given for the answer", "why_tests_cant": "The code has a separate function for each way of asking, for each attribute and class; tests use one of them with one scenario.", "anchors": ["pywr/_core.pyx: Node, AggregatedNode, StorageInput, StorageOutput, Storage, AggregatedStorage: properties, get_*, get_all_*, get_constant_*, get_fixed_*, commit_all"]}
{"id": "C107", "title": "A recorder in a document is the recorder that its constructor makes", "statement": "A recorder loaded from a document has the attributes it gets when its constructor is called with the nodes, parameters, recorders, scenarios and values that the entries stand for; entries that name nothing in the model, that are unknown or missing are refused. The constructor keeps each argument, or the documented default for it, in the form described for it. The entries and arguments that the constructor describes as optional may be left out. A recorder has a name that no other component of the model has.", "quantifier": "all documents, all worlds of names, 31 classes of recorders with any class name", "why_tests_cant": "Every class has its own load that takes entries out of the document and passes the rest; tests load one document per class with the usual entries.", "anchors": ["pywr/recorders/_recorders.pyx: Recorder, load and __init__ of the recorder classes, load_recorder", "pywr/recorders/_thresholds.pyx, _hydropower.pyx, events.py, calibration.py, kde.py: __init__, load"]}
{"id": "C108", "title": "Demands are met and supplies are used in the order of their costs", "statement": "In a solution of least cost, no change along routes that would make it cheaper is possible: a node on the way is at its limit, a storage is full or empty, or a virtual storage, an aggregated node, a fixed ratio or a connection between domains stands against it. So of two demands that are supplied along the same ways, the one of lower cost has all it can take before the other one gets more than its minimum; of two supplies that lead to the same places, the cheaper one gives all it can before the other one gives more than its minimum. A route with a negative cost is used until something is full; one with a positive cost is used only as far as a minimum flow asks for it.", "quantifier": "all networks, limits, costs, volumes and all solutions of least cost; for the edge solver, networks without cycles inside domains", "why_tests_cant": "Tests solve single small networks with one optimal allocation; the order has to hold for all networks and for whichever of the optimal solutions the solver returns.", "anchors": ["pywr/solvers/cython_glpk.pyx:489-491, 514-706, 708-719, 885-892, 931-1019", "pywr/solvers/cython_glpk.pyx: CythonGLPKEdgeSolver"]}
{"id": "C109", "title": "Volumes of storages in double precision", "statement": "Computed in IEEE double precision, with every operation rounded and with a solver whose answers are feasible only up to its tolerance, the volume of a storage stays in its bounds throughout a run and differs from what flowed in and out by at most 3e-6 per timestep; the reported fraction is between 0 and 1 and off by at most one rounding. Runs in whole numbers are computed exactly.", "quantifier": "all volumes, bounds, flows, lengths of timesteps and runs, all answers of the solver that respect the rows it was given", "why_tests_cant": "Rounding errors depend on all bits of all numbers; the numbers used in tests are small and mostly whole, where nothing is rounded.", "anchors": ["pywr/_core.pyx:475-483, 941-944, 975-978, 1335-1361", "pywr/solvers/cython_glpk.pyx:66-77, 963-990, 1790-1815"]}
{"id": "C110", "title": "Values of parameters come from where the document says", "statement": "A parameter with an array of values (profiles, arrays over time, one value or profile per member of a scenario) returns on every day and in every member the number that stands for it in the document, in the named column or table, or in the file; the same numbers give the same parameter wherever they stand; data of the wrong size are refused; the other options of the entry keep their effect; an entry naming a cell of a table is the number in that cell.", "quantifier": "every class of parameters with an array of values, every document, table, scenario, day and member", "why_tests_cant": "Tests load one file per class with the right size; they do not compare sources, sizes and options, and tables with a dimension of one are squeezed.", "anchors": ["pywr/parameters/_parameters.pyx:125-142", "pywr/parameters/_parameters.pyx:180-187", "pywr/parameters/_parameters.pyx:287-333", "pywr/parameters/_parameters.pyx:520-545", "pywr/parameters/_parameters.pyx:627-907", "pywr/parameters/_parameters.pyx:2319-2385", "pywr/dataframe_tools.py:159-223"]}
{"id": "C111", "title": "Totals, licences and control curves in double precision", "statement": "Computed with doubles, totals and means of flows are within a known multiple of the rounding unit of the exact ones, never decrease if no flow is negative and are exact for whole numbers of up to 53 bits; the volume of an active licence or other virtual storage stays in its bounds and balances; a storage on its control curve or above is never taken to be below, and one below it by more than rounding never above; interpolated values lie between the two values of the band.", "quantifier": "every sequence of flows, factors and days, every run of a virtual storage, every fraction, list of curves and list of values, rounded to doubles operation by operation", "why_tests_cant": "Tests compare with a tolerance on a few round numbers; the accumulated rounding of a long run and the behaviour exactly at a curve are not visible.", "anchors": ["pywr/recorders/_recorders.pyx:1740-1802", "pywr/_core.pyx:1483-1493", "pywr/solvers/cython_glpk.pyx:991-1019", "pywr/parameters/_control_curves.pyx:10-24", "pywr/parameters/_control_curves.pyx:171-214", "pywr/parameters/_control_curves.pyx:345-364"]}
{"id": "C112", "title": "Tables of results contain what the recorders recorded", "statement": "The table of all recorders of a model holds a number in a row and a column of a recorder exactly if that recorder's own table does; it exists whenever each recorder's table does; the table of the result of a run has one row for every attribute, setting and statistic of the solver; two series are aligned on the times they have in common between the given dates, each keeping its own values; the profiler has one entry per checkpoint with times that are not negative and do not add up to more than has passed.", "quantifier": "every set of recorders with any tables, every result and names of settings, every pair of series, names and dates, every sequence of checkpoints and clock readings", "why_tests_cant": "Tests join tables with equal rows and one scenario; differing rows, several levels of columns, name clashes and empty intersections do not occur in them.", "anchors": ["pywr/_model.pyx:874-881", "pywr/_model.pyx:1067-1105", "pywr/notebook/figures.py:17-56", "pywr/profiler.py:12-77"]}
{"id": "C113", "title": "Flows of nodes in double precision", "statement": "In double precision, the flow that the route solver commits to a node is the sum of the flows of the routes that start or end there or pass it as a link, up to (2k+5)\u00b72\u207b\u2075\u00b3 of the sum of their sizes for k routes, and the edge solver's flow of a node is the sum of the flows of its edges (half of it for a link) up to the same bound. Nodes on the same routes have exactly the same flow, a node carries at least as much as any node all of whose routes pass it, at least the flow of each of its routes and never a negative flow, a node on one route or (if it is not a link) one edge has exactly its flow, and whole numbers are summed exactly. Inputs and outputs balance, and limits on flows are kept, up to the solver's tolerance and such a rounding error, though not exactly. If the flows of the routes respect the row of a storage up to the solver's tolerance, then the volume after collecting, committing and updating in double precision stays within its bounds.", "quantifier": "all routes and edges, all flows of them that the LP solver may return, all nodes", "why_tests_cant": "Tests compare the flows of small networks with approximate equality; how far rounding may take a flow from the solution of the LP, and which relations between nodes hold exactly, depends on all solutions.", "anchors": ["pywr/solvers/cython_glpk.pyx:1068-1091", "pywr/solvers/cython_glpk.pyx:1893-1917", "pywr/_core.pyx:475-483"]}
{"id": "C114", "title": "Licences in double precision", "statement": "In double precision, if in no timestep a node takes more than the value of its licence and a tolerance of the solver, it takes no more than the licensed amount, up to that tolerance and about 3\u00b72\u207b\u2075\u00b3 of the amount for each timestep: for a StorageLicense in total, for an AnnualLicense with daily timesteps in each calendar year, and with longer timesteps in what is left of a year. What is left of a licence is never negative, never grows without a reset, and differs from the amount less what was taken by no more than this. Without the rounding error a licence can be exceeded.", "quantifier": "all amounts, tolerances, sequences of timesteps and flows, all states left by earlier runs", "why_tests_cant": "Tests run a few timesteps with round numbers; that rounding errors cannot accumulate beyond a bound, for any length of run, is a statement about all sequences of flows.", "anchors": ["pywr/parameters/licenses.py:66-147"]}
{"id": "C115", "title": "Files are opened and closed by whom they should be", "statement": "Whatever is called and whatever raises, every file that is open and was not opened by the user is held by exactly one recorder or parameter, under the name and in the mode it was given, or by one unexhausted generator of generate_dataframes; files opened by the user are closed by the user only; after a run, returned or raised, the model has no file open; a model whose recorders each write a file of their own can be run again after any history, and reset at any time, without a file being refused; setup leaves the metadata given by the user in the file, over format and version; no other file is changed.", "quantifier": "all models, all sequences of setup, reset, step, run, finish, of changes to the model, and of files opened and closed by the user, all places where a hook may raise", "why_tests_cant": "Tests open one file, run once, and read it. Which files are open after an exception in any hook, or after any order of calls, is a property of all histories.", "anchors": ["pywr/h5tools.py:5-63", "pywr/recorders/recorders.py:410-429", "pywr/recorders/recorders.py:545-555", "pywr/recorders/recorders.py:680-699", "pywr/recorders/_tables_recorders.pyx:206-226", "pywr/recorders/_tables_recorders.pyx:379-385", "pywr/recorders/_tables_recorders.pyx:616-651", "pywr/parameters/_parameters.pyx:378-391", "pywr/parameters/_parameters.pyx:491-492", "pywr/_model.pyx:641-872"]}
{"id": "C116", "title": "No more is used between two replenishments of a licence than its volume", "statement": "In every run in which the flows respect the constraint of an annual virtual storage, the volume used (flow times factor times days) in any year that begins on its reset date is at most its maximum less its minimum volume, up to 1e-6 for every timestep; likewise for a monthly virtual storage in any of its periods, and for a seasonal one counting the timesteps in which it is in force; in a timestep with a replenishment exactly the maximum volume (or the initial volume, if that was asked for) is there, and every use up to what is left is allowed.", "quantifier": "all licences, all dates, lengths of timesteps and flows, all answers of the solver within its tolerance, first and later runs", "why_tests_cant": "A test runs some days and looks at the volume. That no choice of flows, over years, gets around the licence, depends on when the volume is replenished, with what, and on every answer the solver may give.", "anchors": ["pywr/nodes.py:596-758", "pywr/_core.pyx:1294-1361", "pywr/_core.pyx:1464-1493", "pywr/_model.pyx:829-851", "pywr/solvers/cython_glpk.pyx:991-1019"]}
{"id": "C117", "title": "An array recorder of flows records the flow times the factor it was given", "statement": "Every number a NumpyArrayNodeRecorder records is the flow of the node times the factor it was given, up to the rounding of doubles: the attribute factor reads as it was set, and the recorded numbers of timesteps of a day add up to the value of a TotalFlowNodeRecorder with the same factor.", "quantifier": "all factors, all flows, runs of any length", "why_tests_cant": "Tests use factors such as 2.0 or compare with a tolerance. Which factors are kept exactly, and how far off the others are, is a matter of all numbers.", "anchors": ["pywr/recorders/_recorders.pxd:41-44", "pywr/recorders/_recorders.pyx:599-624", "pywr/recorders/_recorders.pyx:1756-1802"]}
{"id": "C118", "title": "Parts of a model that are not connected do not influence each other, and the order of definition does not matter", "statement": "Two systems put into one model, with no connection between them and no storage, virtual storage, aggregated node or cross-domain link that refers to both, get the results they have as models of their own: the solutions of the whole model (either solver) are exactly the solutions of both parts side by side, the cost-optimal ones are those that are optimal for both, costs add up, flows of nodes and supply routes are those of the parts. The order in which nodes, components, routes and connections are defined has no influence on which flows are feasible, on what they cost or on which are optimal.", "quantifier": "all models with any split into two sides without connections, all solutions, both solvers, all orders of definition", "why_tests_cant": "Independence is about pairs of runs and every pair of systems; tests run a few fixed models, each with nodes in one order.", "anchors": ["pywr/solvers/cython_glpk.pyx:388-750", "pywr/solvers/cython_glpk.pyx:838-1093", "pywr/solvers/cython_glpk.pyx:1145-1540", "pywr/solvers/cython_glpk.pyx:1646-1918", "pywr/_model.pyx:496-582"]}
{"id": "C119", "title": "Wider limits and further supplies never make a model infeasible or costlier", "statement": "When only limits are made wider (minimum flows lowered, maximum flows raised, minimum volumes lowered, maximum volumes raised, on nodes, storages, virtual storages or aggregated nodes), every allocation that was feasible in the timestep stays feasible, at the same cost and with the same flows, with either solver; so the least cost never rises. Adding nodes whose limits include zero, together with the routes or connections through them, has the same property: every old allocation, with nothing on the new routes, is an allocation of the larger model.", "quantifier": "all models, all wider limits, all added nodes, routes and connections, all feasible allocations, both solvers", "why_tests_cant": "Monotonicity compares every pair of models; tests run each model with one set of limits.", "anchors": ["pywr/solvers/cython_glpk.pyx:66-79", "pywr/solvers/cython_glpk.pyx:838-1093", "pywr/solvers/cython_glpk.pyx:1646-1918"]}
{"id": "C120", "title": "The units of flows and volumes and the currency of costs do not matter", "statement": "Converting all flow limits and volumes of a model to other units converts the allocations, node flows and total cost and changes nothing else: an allocation is feasible, or cost-optimal, in one unit exactly when the converted allocation is in the other, with either solver. Converting all costs to another currency changes neither which allocations are feasible nor which are cost-optimal.", "quantifier": "all models, all conversion factors, all allocations, both solvers", "why_tests_cant": "Invariance relates every model to all its conversions; tests use one unit, and the absolute tolerances in the solver make invariance fail for some magnitudes.", "anchors": ["pywr/solvers/cython_glpk.pyx:66-79", "pywr/solvers/cython_glpk.pyx:881-1018", "pywr/solvers/cython_glpk.pyx:1695-1850"]}
{"id": "C121", "title": "A node that becomes dearer is not used more, and only differences of costs count", "statement": "When the cost of a node is raised and everything else stays, its flow in a cost-optimal allocation is not higher than before (for a demand: raising its priority does not lower its supply), whichever optimal allocations the solver picks before and after. For any change of costs, the changes of the costs times the changes of the flows of the nodes do not add up to a positive amount. Adding the same amount to the costs of all inputs and taking it off the costs of all outputs changes no cost and no optimal allocation.", "quantifier": "all models, all changes of costs, all pairs of optimal allocations, both solvers", "why_tests_cant": "The law compares every pair of optimal solutions of every two models; tests compare a few numbers for a few models.", "anchors": ["pywr/solvers/cython_glpk.pyx:708-719", "pywr/solvers/cython_glpk.pyx:881-897", "pywr/solvers/cython_glpk.pyx:1695-1721"]}
{"id": "C122", "title": "A plain link put into a connection changes nothing", "statement": "Replacing a connection from a to b by connections from a to a new link and from the link to b, where the link has no limits and no cost, changes nothing but the link's own flow, which is that of the connection: the routes found are those found before, led through the link; the same allocations are feasible, at the same cost, the same ones are optimal, and all other nodes have the same flows.", "quantifier": "all models, all connections and links, all allocations, both solvers", "why_tests_cant": "Equivalence of two models for all allocations and all positions of a link; tests compare single optimal solutions of single models.", "anchors": ["pywr/_model.pyx:496-582", "pywr/solvers/cython_glpk.pyx:514-706", "pywr/solvers/cython_glpk.pyx:1293-1538"]}
{"id": "C123", "title": "The same restriction written in different ways means the same", "statement": "Moving the limits of a node to an aggregated node with that one member changes nothing: the same allocations are feasible, at the same cost and with the same flows. The same holds for giving an upper limit in the form of a licence (virtual storage) in which as much volume is left as the limit lets through during the timestep. Closing nodes (upper limit zero) means the same as taking them out of the model: nothing flows on the routes or edges at them, what is left is feasible without them at the same cost and with the same flows, and the least cost is the same.", "quantifier": "all models, all nodes and limits, all allocations, both solvers", "why_tests_cant": "Equivalence of two differently written models for all allocations; tests compare single optimal solutions of single models.", "anchors": ["pywr/solvers/cython_glpk.pyx:514-706", "pywr/solvers/cython_glpk.pyx:876-1020", "pywr/solvers/cython_glpk.pyx:1293-1538"]}
{"id": "C124", "title": "A supply in two halves is as good as one", "statement": "Two supplies of the same cost that feed the same places can deliver together exactly what one supply with the sum of their upper limits can deliver: every allocation with the two gives one with the single supply at the same cost, with the same flows of all other nodes and with the sum of the two flows, and every allocation with the single supply can be divided between the two; the least cost is the same. (Limits from 1e-8 up: the solver rounds smaller ones to zero, and two halves that are each rounded away deliver nothing although the whole would.)", "quantifier": "all models, all limits from 1e-8 up, all allocations, both solvers", "why_tests_cant": "Equivalence of two differently written models for all allocations; tests compare single optimal solutions of single models.", "anchors": ["pywr/solvers/cython_glpk.pyx:514-706", "pywr/solvers/cython_glpk.pyx:876-1020", "pywr/solvers/cython_glpk.pyx:1293-1538"]}
{"id": "C125", "title": "Limits that are not reached do not matter, and each further unit of capacity saves no more than the one before", "statement": "An allocation that is optimal stays optimal when maximum or minimum flows of nodes, or maximum or minimum volumes of storages, that it does not reach are moved to other values that it does not reach, and it was not optimal before if it is not optimal after. Whatever lies between two feasible allocations is feasible, at the cost in between, and whatever lies between two optimal allocations is optimal. The least cost is a convex function of the maximum flow of a node: raising the limit by one more unit never saves more than the unit before.", "quantifier": "all models, all limits more than 2e-8 away from the flows, all allocations, both solvers", "why_tests_cant": "Sensitivity of the optimum to every unreached limit and over all allocations; tests look at one optimal solution for one set of limits.", "anchors": ["pywr/solvers/cython_glpk.pyx:514-706", "pywr/solvers/cython_glpk.pyx:876-1020", "pywr/solvers/cython_glpk.pyx:1293-1538"]}
{"id": "C126", "title": "Licences and capacities hold over every run of a model", "statement": "In every run of any model, of any length, with either solver and whatever the other parameters do: a node whose maximum flow is an AnnualLicense (daily timesteps) takes at most the licensed amount in every calendar year, in every scenario; with a StorageLicense at most the amount over the run; between two refills of a virtual storage its nodes use at most what it was filled with, less its minimum; in every window of a rolling virtual storage they use at most its capacity; and in any stretch of time a reservoir loses no more than the difference of its limits and what flows into it. (Volumes within 1e-6 of a limit are put at the limit: up to 2e-6 for each timestep, 1e-6 for rolling storages.)", "quantifier": "all networks, all parameters, all solutions the solver may return, runs of any length, any number of scenarios", "why_tests_cant": "A claim about every history of a closed loop of parameters, solver and state; tests run a few steps of a few models.", "anchors": ["pywr/parameters/licenses.py:66-147", "pywr/_core.pyx:1458-1536", "pywr/nodes.py:596-758", "pywr/solvers/cython_glpk.pyx:991-1019", "pywr/_model.pyx:584-700"]}
{"id": "C127", "title": "A least-cost allocation exists, and a model in which nothing has to flow runs to its end", "statement": "The linear programme either solver builds has no solution, or solutions of arbitrarily small cost, or a solution of least cost (the least cost, if it is bounded, is attained). It is bounded if every route (every edge) passes a node with a finite maximum flow or no node with a negative cost. If the limits of all nodes and aggregated nodes include zero, allocating nothing is a solution whatever the volumes of storages and virtual storages are; so every run of such a model, in one or many scenarios, whatever its parameters do, can be continued for any number of timesteps, with solutions of least cost if rewards have finite maxima. Otherwise the solve can fail: a rewarded demand and a source with the default maximum flows have solutions of arbitrarily small cost, and a minimum flow above what a source can give has none.", "quantifier": "all networks, limits, costs, volumes, virtual storages, aggregated nodes, all parameters, runs of any length", "why_tests_cant": "Existence of a solution in every state any run can reach; a test sees that particular models do not fail in particular states.", "anchors": ["pywr/solvers/cython_glpk.pyx:832-1100", "pywr/solvers/cython_glpk.pyx:1645-1920", "pywr/_model.pyx:584-700"]}
{"id": "C128", "title": "Inflows that can run off never make a model insoluble", "statement": "Inputs may have minimum flows above zero, as catchments have (minimum and maximum flow are the flow of the catchment). If each of them has a way down on which any amount of water may pass - a route to an output that belongs to no storage, or a route into a storage, from there a route on, and so on - whose nodes no virtual storage, aggregated node or conversion between domains counts, and nothing else has to flow, then the route solver finds a solution whatever the inflows are and whatever the volumes of storages and virtual storages are. So every run of such a model, in one or many scenarios, can be continued for any number of timesteps, with solutions of least cost if rewards have finite maxima; and the same holds with the edge solver where both solvers describe the same network (C24). With a maximum flow on the only way the solve can fail.", "quantifier": "all networks, inflows, limits, costs, volumes, parameters that depend on all that has happened, runs of any length, any number of scenarios", "why_tests_cant": "The claim is about every sequence of inflows and every state of the reservoirs; a test runs a model with particular inflows.", "anchors": ["pywr/solvers/cython_glpk.pyx:832-1100", "pywr/solvers/cython_glpk.pyx:1645-1920", "pywr/_model.pyx:584-700", "pywr/domains/river.py:22-55"]}
{"id": "C129", "title": "Recorders of one run agree with each other and with the balance of the water", "statement": "Recorders that look at the same run never contradict each other: the total flow of a node is the sum of the entries of its array recorder times the days of the timesteps; the mean flow is their mean and, with equal timesteps, the total divided by the length of the run; total deficit and total flow add up to the total of the parameter that is the maximum flow; the total deficit and the deficit frequency are what the array of deficits says; the annual totals add up to the total if no timestep crosses a new year; the minimum volume is the least in the array of volumes, and the minimum threshold recorder shows 1 exactly if it is at or below the threshold; annual counts of exceedances, with nothing excluded, add up to the count over all timesteps, and the years counted are those with a count that is not zero. With a total flow recorder on every node of a model, in every scenario the totals of the inputs less those of the outputs are the change of the stored water, up to 2e-6 per storage and timestep.", "quantifier": "all runs of any length, any flows, limits, volumes, indices, lengths of timesteps, factors, thresholds, numbers of scenarios, all networks and solutions of either solver", "why_tests_cant": "The claim relates the results of different classes over every history; tests check each recorder alone against numbers computed for one model.", "anchors": ["pywr/recorders/_recorders.pyx:574-690", "pywr/recorders/_recorders.pyx:1151-1190", "pywr/recorders/_recorders.pyx:1740-2330", "pywr/_model.pyx:584-637"]}
{"id": "C130", "title": "A run can be cut in two: longer runs begin like shorter ones, and a model started with the volumes of a run continues it", "statement": "The first timesteps of a run are what a shorter run would have done, whatever data there are for later timesteps. A model that is started at a later timestep with the volumes of storages and virtual storages that a run had there (nothing else is handed over: no flows, no fractions) can do exactly what the run can do from there on, and its volumes stay the same as those of the run, provided its parameters say what those of the run say: so it is for all parameters that look at the date and at volumes only, in any number of scenarios. It is not so for parameters that remember earlier flows. Totals, counts of timesteps and arrays of the two parts put together are those of the whole, and the minimum volume is the smaller of the two; years counted are not, as a year that is cut can be counted twice.", "quantifier": "all networks, parameters, runs of any length, places of the cut, volumes, numbers of scenarios, either solver and any choice between solutions", "why_tests_cant": "The claim compares two runs for every place of the cut and every history before it; tests run a model from its start to its end.", "anchors": ["pywr/_model.pyx:584-700", "pywr/_core.pyx:1289-1361", "pywr/_core.pyx:1464-1493", "pywr/timestepper.py:52-110", "pywr/recorders/_recorders.pyx:574-690", "pywr/recorders/_recorders.pyx:1740-1915", "pywr/recorders/_recorders.pyx:2153-2210"]}
{"id": "C131", "title": "The timesteps of a run cover the dates asked for, with the timestep asked for", "statement": "A Timestepper made with a start, an end that is not before it and a timestep (a number of days, a timedelta, or a frequency of pandas such as '7D', '12H' or 'M') visits timesteps that follow each other without gap or overlap; the first contains the start, the last contains the end. Every timestep is exactly as long as was asked for. With timesteps of n days there are as many as n-day pieces, begun or complete, from the day of the start to the day of the end. A later end only adds timesteps, and a run that starts where one of the timesteps of another run begins has the rest of its timesteps. A timestep of no days and an end before the start are refused.", "quantifier": "all starts, ends, timesteps and bases of frequencies (seconds to years, with calendars of any kind)", "why_tests_cant": "The claim holds for all dates and frequencies, months and leap years among them; tests use a few dates.", "anchors": ["pywr/timestepper.py:11-50", "pywr/timestepper.py:112-182", "pywr/_model.pyx:76-82"]}
{"id": "C132", "title": "Systems that are not connected can be simulated together or apart", "statement": "If a model consists of two systems that no route, connection, storage, virtual storage or aggregated node joins, and the parameters of each look only at what happens in it, then every run of the model is on each side a run of that system as a model of its own, with the same flows, volumes and licences in every timestep; and runs of the two systems of the same length are, put together, a run of the model. This holds for both solvers, for any solutions and for solutions of least cost. A system that cannot be simulated past some timestep stops the whole model there.", "quantifier": "all networks of two parts, all parameters that depend on the history of their part, all starting volumes, runs of every length, both solvers", "why_tests_cant": "Equality of two differently composed models over all histories; a test compares single runs of single models.", "anchors": ["pywr/_model.pyx:584-700", "pywr/solvers/cython_glpk.pyx:514-706", "pywr/solvers/cython_glpk.pyx:1293-1538", "pywr/_core.pyx:900-1180"]}
{"id": "C133", "title": "A whole run gives the same results in other units and currencies", "statement": "If all flows and volumes of a model (limits, starting volumes, refills of licences, and what its parameters return) are given in other units, every run of the model is, converted, a run of the model in the other units: in every timestep flows, volumes and what is left of licences are the converted ones and the fractions of storages are the same. With costs in another currency every least-cost run is a least-cost run with the same flows and volumes.", "quantifier": "all networks, factors, parameters, starting volumes, runs of every length, both solvers", "why_tests_cant": "A relation between the runs of two models over all histories; a test compares single runs.", "anchors": ["pywr/_model.pyx:584-700", "pywr/_core.pyx:1335-1361", "pywr/_core.pyx:1483-1493", "pywr/solvers/cython_glpk.pyx:966-1019"]}
{"id": "C134", "title": "A whole run does not depend on how the same network is written down", "statement": "A link without limits and costs put into a connection, the limits of a node written as those of an aggregated node with that one member, nodes that are shut (with the routes through them) added or left out, and one supply instead of two of the same cost, do not change what a model can do in a simulation: to every run of one model there is a run of the other with, in every timestep, the same values of the parameters, the same flows of all common nodes, and the same volumes of storages and licences; the same holds for least-cost runs.", "quantifier": "all networks, parameters that see the history, starting volumes, runs of every length, both solvers", "why_tests_cant": "A relation between all runs of two models; a test compares single runs, and with several optimal solutions they may differ.", "anchors": ["pywr/_model.pyx:584-700", "pywr/solvers/cython_glpk.pyx:514-706", "pywr/solvers/cython_glpk.pyx:1293-1538", "pywr/_core.pyx:1335-1361"]}
{"id": "C135", "title": "Limits that are never reached do not matter for a whole run", "statement": "If in every timestep of a simulation only maximum and minimum flows of nodes, and maximum and minimum volumes of storages, that are not reached in that timestep are replaced by others that are not reached either (volumes stay 2e-6 away, and 2e-8 for every day of the timestep; flows 2e-8), then the same flows are still a least-cost solution in every timestep and all volumes of storages and licences are the same; and they were not a least-cost run before if they are not one after.", "quantifier": "all networks, parameters that see the history, starting volumes, histories of every length, both solvers", "why_tests_cant": "Sensitivity of a whole run to every limit in every timestep: tests run a model with one set of limits, and an added capacity that is not used is noticed by no test unless the solver happens to return other flows.", "anchors": ["pywr/_model.pyx:584-700", "pywr/solvers/cython_glpk.pyx:514-706", "pywr/solvers/cython_glpk.pyx:876-1020", "pywr/solvers/cython_glpk.pyx:1293-1538", "pywr/_core.pyx:1335-1361"]}
{"id": "C136", "title": "The order of definition does not matter for a whole run", "statement": "Nodes, storages, licences, aggregated nodes, conversions between domains, connections and routes can be defined in any order: to every run of a model there is a run of the model in the other order with, in every timestep, the same values of the parameters and the same flow of every node, and with the same states of storages and licences afterwards; and to every least-cost run a least-cost run.", "quantifier": "all networks, all orders of all components, parameters that see the history, starting states, runs of every length, both solvers", "why_tests_cant": "A relation between all runs of a model and all its orderings; a test compares two orders in one run, and with several optimal solutions the solver may return different ones.", "anchors": ["pywr/_model.pyx:584-700", "pywr/solvers/cython_glpk.pyx:390-520", "pywr/solvers/cython_glpk.pyx:1180-1420", "pywr/_core.pyx:1335-1361"]}
{"id": "C137", "title": "A parameter is made with the name, comment, tags and is_variable that are said", "statement": "Parameter(model, ..., name=, comment=, tags=, is_variable=) of every class makes a parameter with exactly these, and with none of them (and not variable) where nothing is said; saying one of them more in a call that works keeps it working and changes nothing else, unless the name is taken (ValueError); a keyword that no class in the chain of base classes knows raises TypeError.", "quantifier": "all 75 classes of parameters, all positional and keyword arguments, all names already in the model", "why_tests_cant": "The keywords travel through up to four constructors, each with its own way of passing them on; tests construct most classes with one fixed set of arguments and hardly ever look at comment, tags or is_variable.", "anchors": ["pywr/parameters/_parameters.pyx:43-48", "pywr/_component.pyx:84-102", "pywr/parameters/_parameters.pyx:206-207", "pywr/parameters/parameters.py:124-127"]}
{"id": "C138", "title": "A recorder is made with the name, comment, aggregation, objective and bounds that are said", "statement": "Recorder(model, ..., name=, comment=, tags=, agg_func=, ignore_nan=, is_objective=, epsilon=, constraint_lower_bounds=, constraint_upper_bounds=) of every class makes a recorder with exactly these, and with the defaults of Recorder where nothing is said; without a name it is named after its class, and after the node, storage or parameter it is about, so that the recorders of different things can be made without names; a keyword that no class in the chain of base classes knows raises TypeError.", "quantifier": "all 61 classes of recorders, all positional arguments up to the name, all keyword arguments, all names already in the model", "why_tests_cant": "The keywords travel through up to five constructors, some of which take keywords out, rename them, or add some; tests use most classes with one fixed set of arguments.", "anchors": ["pywr/recorders/_recorders.pyx:218-234", "pywr/recorders/_recorders.pyx:459-514", "pywr/recorders/_recorders.pyx:599-603", "pywr/recorders/kde.py:36-43", "pywr/_component.pyx:84-102"]}
{"id": "C139", "title": "A node is made with the name, comment, tags, domain, parent, position, colour and visibility that are said", "statement": "Node(model, name, ..., comment=, tags=, domain=, parent=, position=, color=, visible=) of every class makes a node with exactly these, and with the defaults where nothing is said: the name is the keyword or the argument at the place of the name, never both, and a keyword that no class in the chain of base classes knows is refused. The colour given is the colour of the node; without one it is that of its kind.", "quantifier": "all 27 classes of nodes, all positional arguments, all keyword arguments", "why_tests_cant": "The keywords travel through up to eight constructors along the order of method resolution, some of which take keywords out, put others in, or assign the colour before or after those of their base classes; tests use most classes with one fixed set of arguments.", "anchors": ["pywr/_core.pyx:344-358", "pywr/nodes.py:18-40", "pywr/nodes.py:210-297", "pywr/nodes.py:612-624", "pywr/nodes.py:795-827", "pywr/domains/river.py:14-43", "pywr/domains/river.py:251-267"]}
