# Formal model of pywr – design

## Layout

| path | content |
|---|---|
| `lean/Verif/Model/*.lean` | executable model of the code, one module per topic, every definition cites file and lines in `/repo` |
| `lean/Verif/Spec/*.lean` | small specifications written without reference to the model |
| `lean/Verif/Proof/*.lean` | helper lemmas |
| `lean/Verif/Props/*.lean` | the property theorems (named `Cnn_...`) with `example`s that their hypotheses are satisfiable |

Properties are in `properties.jsonl`, the map property -> theorem is `MANIFEST.json`, the mutation log is `seeded/LOG.jsonl`.

## Conventions of the model

* A C `double` is modelled by an exact rational (`Rat`). NaN and infinities are explicit (`Option`, `Ext`) wherever the code
  distinguishes them. Rounding is **not** modelled.
* A Python exception is a value (`Except`), a mutated object is a state passed through.
* The LP solver (GLPK) is *not* modelled: wherever its answer matters the theorem quantifies over **every** assignment that
  satisfies the rows and bounds that the code builds (and, if optimality matters, every optimal one).
* pandas / networkx / numpy calls are modelled by their documented behaviour (stated at each definition).
* Theorems ending in `_partial` prove part of a property; theorems ending in `_fails` prove that the property as stated does
  not hold of the (modelled) code, with a concrete witness.

## Plan per property (what is modelled / how it is proved)

* **C01** component graph, networkx DFS post-order, cycle test; prove the returned list is a duplicate-free topological order and cyclic => error (DFS induction).
* **C02** same graph plus the multiple-threshold constructors calling `children.add(<the list>)`; expected to be violated: negation by witness, positive part for registered dependencies.
* **C03** `get_combinations`; equality with set-builder spec (membership, no duplicates, lexicographic order).
* **C04** `ravel_indices` (C order); inverse/injective; witness with slices.
* **C05** state machine add-scenario / set-combinations / setup; acceptance iff, verbatim use, witness for later additions.
* **C06** state machine of `Timestepper`; output sequence for every number of calls.
* **C07** period search loop with `start <= t < end_time`; characterisation and behaviour at the last tick.
* **C08** bit-level leap test, day index, week index against a cumulative-month-length spec, all years.
* **C09** `days_in_current_year` / `days_in_next_year` on nanosecond integers.
* **C10, C11** LP storage bounds and `Storage.after` (with snapping); solver answer arbitrary feasible; induction over steps.
* **C12, C13** decision tables of `get_current_pc`, `get_initial_volume`, `get_initial_pc`.
* **C14** ring buffer of `RollingVirtualStorage`; invariant and sliding-window theorem by refinement to the list history.
* **C15, C16, C17** `before`/`reset` of the Annual/Monthly/Seasonal virtual storages as folds over timesteps.
* **C18** node state, `Model.reset` over visible nodes; witness for hidden children; positive part.
* **C19** per class `before/commit/after` machines.
* **C20, C21, C22, C23, C25, C53, C54** route LP and edge LP as built by the GLPK solvers: rows as linear functionals over columns; theorems for every assignment satisfying the rows.
* **C24** route solution -> edge solution by summation; edge solution -> route solution by flow decomposition on acyclic networks.
* **C26** `find_all_routes` = filter of networkx simple paths; soundness, completeness, no duplicates.
* **C27, C28** sub-network models of `PiecewiseLink`, `LossLink`.
* **C29, C34, C35** ring buffers refined to list history.
* **C30, C31, C32, C33, C36, C37, C38, C39, C52, C60** parameter value functions.
* **C40, C41, C42, C57, C58, C59** recorders as folds over the run history.
* **C43** setter state machine and decision logic of violation / feasibility.
* **C44** bisection loop, well-founded by interval halving.
* **C45** hash cache state machine with an arbitrary digest function.
* **C46, C47, C48, C55, C56** loading and graph bookkeeping.
* **C49, C50** run loop with failures at arbitrary points.
* **C51** scenario column re-mapping.

## What is modelled

One line per model module; every definition cites the lines it transcribes and names its simplifications.

| module | code |
|---|---|
| `Model/Aggregate` | **Aggregated parameters.** `AggregatedParameter` (`/repo/pywr/parameters/_parameters.pyx:1439-1557`) and `AggregatedIndexParameter` (`:1559-1685`): `calc_values`, `add`, `remove`. Child values are finite numbers. Index values are unbounded integers (C `int` in the code: overflow is not modelled). User functions (`CUSTOM`) are not modelled. |
| `Model/AggregatedStart` | **Aggregated storages at the start of a run.** `AggregatedStorage.reset` (`/repo/pywr/_core.pyx:1379-1399`) for one combination of scenarios, in successive runs of a model: `Model.setup` and `Model.reset` (`/repo/pywr/_model.pyx:684-815`) reset the nodes before any parameter is evaluated, `Parameter.setup` allocates the array of values without filling it (`/repo/pywr/parameters/_parameters.pyx:58-65`), and nothing but `calc_values` writes to it (`:70-75`; `:158-160` for constants). |
| `Model/Aggregators` | **Aggregation functions: how they are given, percentiles and scores.** `/repo/pywr/recorders/_recorders.pyx:10-33` (the table of names), `:84-107` (`Aggregator.func`), and the percentile branches of `aggregate_1d` and `aggregate_2d` (`:133-136, 167-181`) with `np.percentile` (linear interpolation, `Model/DurationCurves.lean`) and scipy's `percentileofscore` (the four kinds). Arguments of these two functions other than the percentile, the score and the kind are not modelled. |
| `Model/Aquifer` | **Keating aquifers.** `KeatingAquifer` (`/repo/pywr/domains/groundwater.py:9-127`) and `KeatingStreamFlowParameter` (`/repo/pywr/parameters/groundwater.py:7-61`). The creation of the nodes is part of `Model/Network.lean`, the storage itself of `Model/Storage.lean`. The numbers of streams and additional inputs are natural numbers; `0.001` is the exact fraction. |
| `Model/Attributes` | **Numeric attributes of nodes.** the attributes of nodes and storages that are numbers or parameters, their setters and all ways to ask for them (`/repo/pywr/_core.pyx:485-489, 499-709, 812-911, 941-1003, 1078-1108, 1184-1280, 1429-1456`). A parameter is known by a number; `World` gives its values in the present timestep, one for each combination of scenarios. `Node.set_parameters` (`:711-723`) is not used by any code. |
| `Model/Basis` | **The basis kept for each scenario.** what `/repo/pywr/solvers/cython_glpk.pyx` keeps from one solve to the next apart from the problem itself: the basis of each scenario (`BasisManager`, lines 195-232), the flag `is_first_solve` (383, 739, 757-759, 831; edge solver 1144, 1551, 1571, 1644), the presolver (`GLPKSolver`, 159, 174-186) and the second attempt (`retry_solve`, 1025-1063; edge solver 1849-1886). GLPK is any collection of functions: what it answers is determined by the problem in memory, the basis it starts from and whether the presolver is on. The problem in memory is that of the scenario (C68). The statuses of all rows and columns are one value of type `B`. Time limits, messages and statistics are left out. |
| `Model/Bisect` | **Bisection search.** `BisectionSearchModel.run` (`/repo/pywr/utils/bisect.py:52-125`). The parameter and the model are given by `sim v w`: set the variable to `v`, `Model.run()`, `is_feasible()` in state `w` of everything else (`none`: an exception). So the outcome of a run may depend on the earlier runs. The bounds and epsilon are finite and arithmetic is exact (with floating-point numbers and an epsilon below the spacing of doubles the loop need not end); the infinite default upper bound is treated by `infiniteStep`. |
| `Model/Bounds` | **Bounds handed to GLPK.** `/repo/pywr/solvers/cython_glpk.pyx:66-95` (`constraint_type`, `inf_to_dbl_max`) and the bound checks `:297-320`. |
| `Model/BreakLink` | **Break links.** `BreakLink` (`/repo/pywr/nodes.py:1074-1171`): the nodes its constructor makes (`:1106-1123`) and what connecting to it and from it does (`iter_slots`, `:1158-1165`), as the change from a model in which the same place is taken by an ordinary link. |
| `Model/Calendar` | **Timestep calendar fields.** `/repo/pywr/_core.pyx:243-328` (`is_leap_year`, `Timestep`). |
| `Model/Calibration` | **Comparison with observed flows.** `/repo/pywr/recorders/calibration.py:20-92`. The simulated flows are the columns of `data` (one per combination, see C40 for what they hold), the observed ones the columns of the data frame aligned to the timesteps of the model (`align_and_resample_dataframe`, `/repo/pywr/dataframe_tools.py:20-105`, which is not modelled; it raises if a value is missing, `:102-103`). Numbers are exact; square roots are real numbers. Divisions by zero (infinite or not a number in numpy) are `none`. |
| `Model/Checks` | **Checking a model.** `/repo/pywr/_model.pyx:163-188` (`Model.check`, `check_graph`), `:906-925` (`find_orphaned_parameters`), the `components` of a node (`/repo/pywr/_core.pyx:360-375`, with the lists `component_attrs` `:531, 752, 1065`) and `check` of virtual storages (`/repo/pywr/nodes.py:484-489, 574-579`). Nodes and components are numbers, as in `Model/Routes.lean` and `Model/Components.lean`. |
| `Model/ClassTrees` | **Classes in the diagrams of the network.** the lists of classes from which the boxes of the diagrams get their looks (`/repo/pywr/notebook/draw_graph.js:117-121`): the loop in `pywr_model_to_d3_json` (`/repo/pywr/notebook/__init__.py:210-221`) and the same loop in `create_node_class_trees` (`:365-380`), which `pywr_json_to_d3_json` uses (`:309, :321`). Classes are given by their names; two classes of the same name are not distinguished (simplified; `_core.Node` is a name of its own). |
| `Model/Collections` | **The collections of components of a model.** `NamedIterator` (`/repo/pywr/_model.pyx:1014-1064`), the properties `components`, `recorders`, `parameters`, `variables`, `constraints`, `objectives` of a model (`:127-149`), `Component.__init__` and the name setter (`/repo/pywr/_component.pyx:83-102`) and the default name of a recorder (`/repo/pywr/recorders/_recorders.pyx:224-225`). Components are numbers in the order of their creation, the order of the component graph's nodes; edges between them are the matter of C01. |
| `Model/Components` | **Component graph and evaluation order.** `/repo/pywr/_component.pyx:10-91` (`GraphInterface`, `Component.__init__`), `/repo/pywr/_model.pyx:883-904` (`flatten_component_tree`) and the phase loops of `/repo/pywr/_model.pyx:684-872` (`setup`, `reset`, `before`, `after`, `finish`). |
| `Model/Composite` | **Composite nodes: loss links and piecewise links.** `LossLink` (`/repo/pywr/nodes.py:1242-1364`) and `PiecewiseLink` (`/repo/pywr/nodes.py:760-887`): which nodes they create, what `setup` writes to them, and the limits they report. The flows they report are in `Model/NodeRun.lean` (classes `copyOf` and `piecewise`). |
| `Model/Constraints` | **Constraint bounds of recorders, feasibility, aggregation across scenarios.** `/repo/pywr/recorders/_recorders.pyx:84-184` (`Aggregator`), `:216-335` (`Recorder`), `:382-446` (`AggregatedRecorder.values`) and `/repo/pywr/_model.pyx:143-161` (`constraints`, `is_feasible`). |
| `Model/ControlCurve` | **Control curves.** `/repo/pywr/parameters/_control_curves.pyx:10-24` (`_interpolate`), `:171-214` (`ControlCurveInterpolatedParameter.value`), `:276-297` (`ControlCurvePiecewiseInterpolatedParameter.value`), `:345-364` (`ControlCurveIndexParameter.index`), `:501-524` (`ControlCurveParameter.value`) and `:526-543` (variables). The current values of the curves, of the value parameters and the current fraction of the storage are arguments; all are defined numbers (a storage with zero maximum volume has a NaN fraction, which is not modelled here). Lists of values have the length checked by the constructors (`:147-160, 248-257, 430-443`); reads outside them give 0 here and do not occur. |
| `Model/Coupled` | **Coupled models: loading, scenarios and values of another model.** `/repo/pywr/model.py:24-166` (`MultiModel.add_model`, `load`, `load_from_dict`), `:174-205` (`_check_scenarios`), `/repo/pywr/parameters/multi_model_parameters.py:4-108` (parameters which take their value from another model) and the `before` hooks of `ShadowStorage` and `ShadowNode` (`/repo/pywr/_core.pyx:1539-1596`). Simplifications: files are read by an arbitrary `loader`; the directory of the document has already been worked out (`model.py:122-124`); the document is given as a dictionary (`model.py:87`). |
| `Model/CsvRecorder` | **The CSV recorder and its file.** `CSVRecorder` (`/repo/pywr/recorders/recorders.py:113-228`) down to the bytes of the file, for uncompressed files. The text file object of Python collects what is written in a buffer and passes it on at times that are not specified (here: whenever `flush` events occur, any number of characters); it passes on the rest when it is closed or when the last reference to it goes. `csv.writer.writerow` is any function from fields to text. The conversion of a number to text is any function. |
| `Model/DataFrame` | **Parameters that look values up in a table with one column per ensemble member.** `DataFrameParameter` (`/repo/pywr/parameters/_parameters.pyx:192-280`), `ArrayIndexedScenarioParameter` (`302-335`) and `TablesArrayParameter` (`338-512`). The alignment and resampling of a data frame (`align_and_resample_dataframe`, pandas) is not modelled: `frame` is its result. Reading from an HDF file is not modelled: `node` is the content of the array. Cell values are of an arbitrary type, so the conversions between 32 and 64 bit numbers and between integers and floats are left out. |
| `Model/Datasets` | **Data from tables and files; names of types.** `load_dataframe` (`/repo/pywr/dataframe_tools.py:159-223`) after the data are there: choosing columns and rows; `read_dataframe` (`:226-314`) up to the call of the reading function: path, checksums, type of file; and the lookup of parameter and recorder types (`/repo/pywr/parameters/_parameters.pyx:48-56, 2276-2289`, `/repo/pywr/recorders/_recorders.pyx:348-356, 2236-2250`). pandas is modelled by what the selections used here return: a table is its row and column labels with a value for every pair of positions. Labels are strings (`Label`), tuples for multi-level labels being labels as well. The reading functions of pandas, and the frequency of dates (`:208-221`), are not modelled. Texts are lists of characters. |
| `Model/Digraph` | **Insertion-ordered directed graphs.** Model of the parts of `networkx.DiGraph` that pywr uses for its node graph (`Model.graph`) and its component graph (`Model.component_graph`), created in `/repo/pywr/_model.pyx:70` and `:112-113`. Objects are identified by natural numbers (object identity). A graph is the insertion-ordered list of its edges; networkx keeps, per node, an insertion-ordered dictionary of successors, so the order of `adj u` is the order in which the edges out of `u` were added. |
| `Model/Document` | **Loading a whole document.** `Model.load_from_dict` (`/repo/pywr/_model.pyx:309-472`) as far as settings, nodes and edges are concerned, `Model.pre_load_node` and `finalise_node` (`_model.pyx:481-494`), `Loadable.pre_load` and `finalise_load` (`/repo/pywr/nodes.py:47-88`) and the look-up of nodes by name (`_model.pyx:946-957`). Loading may stop half-way, and then the model that was passed in keeps what was added to it; so every function gives the state it leaves behind and the exception, if any. What the attributes of a node become is in `Model/NodeLoading.lean`, the sub-nodes and connections of the classes are in `Model/Network.lean`, parameters and recorders in `Model/References.lean`, included files in `Model/Includes.lean`, scenarios in `Model/Scenarios.lean`. |
| `Model/DoubleFlows` | **Flows of nodes in double precision.** How the solvers turn the solution of the linear programme into flows of nodes, with every operation rounded to a double as in `Model/Float64.lean`: the collection of the flows of routes (`/repo/pywr/solvers/cython_glpk.pyx:1072-1091`) and of edges (`:1893-1917`), and `AbstractNode.commit` (`/repo/pywr/_core.pyx:481-483`). The flows of the columns (`glp_get_col_prim`) are any numbers; nodes are the indices `data.id`; for one scenario. |
| `Model/DoubleLicence` | **Licences in double precision.** `StorageLicense` and `AnnualLicense` (`/repo/pywr/parameters/licenses.py:66-147`) as in `Model/License.lean`, with every operation rounded to a double as in `Model/Float64.lean`, for one scenario. |
| `Model/Doubles` | **Recorders, virtual storages and control curves in double precision.** The sums of recorders (`/repo/pywr/recorders/_recorders.pyx:1740-1802`), the use of virtual storages (`/repo/pywr/_core.pyx:1483-1493`) and the values of interpolating control curve parameters (`/repo/pywr/parameters/_control_curves.pyx:10-24, 171-214`) as in `Model/Recorders.lean`, `Model/VirtualStorage.lean` and `Model/ControlCurve.lean`, but with every operation rounded to a double as in `Model/Float64.lean`, for one scenario. Results beyond the largest double are not limited. |
| `Model/DurationCurves` | **Duration curves.** `FlowDurationCurveRecorder` (`/repo/pywr/recorders/_recorders.pyx:814-872`), `SeasonalFlowDurationCurveRecorder` (`:875-912`), `FlowDurationCurveDeviationRecorder` (`:915-1103`), `StorageDurationCurveRecorder` (`:1243-1302`) and `np.percentile` with linear interpolation (numpy's default). Flows, volumes and targets are finite numbers; tables are lists of rows; a raised exception is `none`. The aggregation of the curve to one value per scenario is the aggregator of C57. Not modelled: reading targets from files. |
| `Model/EventStatistics` | **Event durations and statistics.** `/repo/pywr/recorders/events.py:209-361` (`EventDurationRecorder`, `EventStatisticRecorder`): their `finish`, which runs after the `finish` of the event recorder they depend on (a component is finished after those it depends on, see C01 and C50). Aggregation functions are arbitrary functions of the list of values. `none` stands for NaN. |
| `Model/Events` | **Event recorder.** `/repo/pywr/recorders/events.py:6-159` (`Event`, `EventRecorder`). Timesteps are represented by their index. The recorder observes, for every scenario combination, whether the threshold triggers and the value of the tracked parameter (any value, if there is none). |
| `Model/Expressions` | **Parameters computed from other parameters.** `IndexedArrayParameter` (`/repo/pywr/parameters/_parameters.pyx:1262-1312`), the construction and the changes of the children of `AggregatedParameter` (`:1454-1494`), `DivisionParameter` (`:1688-1739`), `NegativeParameter` (`:1742-1766`), `MaxParameter`, `NegativeMaxParameter`, `MinParameter`, `NegativeMinParameter` (`:1769-1855`), `OffsetParameter` (`:1858-1907`), `ScaledProfileParameter` (`/repo/pywr/parameters/parameters.py:102-119`), `InterpolatedParameter` (`:159-192`), `InterpolatedQuadratureParameter` (`:281-354`), `ScenarioWrapperParameter` (`:359-415`), `parameter_property` (`/repo/pywr/parameter_property.py:1-26`): which parameters they register in the component graph, what their setters do to it, and the value they compute. Values are exact numbers; an exception raised by a computation (division by zero, an index out of range) aborts the run: here it is the value `none`, and everything computed from it is `none` too. The functions of SciPy (`interp1d`, `quad`) are arbitrary functions. All parameters belong to one model. |
| `Model/FixedOnce` | **Values written once.** the options `set_fixed_costs_once`, `set_fixed_flows_once` and `set_fixed_factors_once` of the two GLPK solvers (`/repo/pywr/solvers/cython_glpk.pyx:499-512, 546-550, 669-673, 756-826, 880-945` and `:1266-1290, 1333-1337, 1495-1499, 1569-1628, 1692-1790`): which costs, flow limits and factors are written at setup, at reset and before every solve, and the properties of nodes that decide this (`/repo/pywr/_core.pyx:532-680, 806-812, 906-939, 951-995`). The problem in memory is seen through the values its rows and objective are computed from (`Model/Lp.lean`). The structure (nodes, kinds, which aggregated nodes have factors) is that of the last setup: changes to it make the model dirty. The limits of aggregated nodes and everything about storages is written before every solve and not repeated here. Arrays that are allocated but not filled have arbitrary content. |
| `Model/Float64` | **Storages in double precision.** The volume of a storage (`/repo/pywr/_core.pyx:475-483, 941-944, 975-978, 1335-1361`) and its row in the linear programme (`/repo/pywr/solvers/cython_glpk.pyx:66-77, 963-990`, the same text in `:1790-1815`) as in `Model/Storage.lean`, but with every operation rounded to the nearest double, ties to even, as C compilers do it on the usual machines (without fused operations and with `double` evaluation of intermediate results). A double is a rational number here; results beyond the largest double (which would be infinite) are not limited, the theorems exclude them by the size of the volumes. Zero has no sign. |
| `Model/Functions` | **Function parameters.** `PiecewiseIntegralParameter` (`/repo/pywr/parameters/_parameters.pyx:2046-2102`), `Polynomial1DParameter` and `Polynomial2DStorageParameter` (`/repo/pywr/parameters/_polynomial.pyx`) and the activation functions (`/repo/pywr/parameters/_activation_functions.pyx`; the logistic function, over the reals, is defined beside its theorem in `Props/Functions.lean`). |
| `Model/H5Files` | **Files of results and of data: who opens them, who closes them.** `H5Store` (`/repo/pywr/h5tools.py:5-63`) and what uses it: `TablesRecorder` (`/repo/pywr/recorders/recorders.py:410-429, 545-555, 680-685, 687-699`), `TablesRecorder2` (`/repo/pywr/recorders/_tables_recorders.pyx:206-226, 379-385, 616-637, 639-651`), `TablesArrayParameter` (`/repo/pywr/parameters/_parameters.pyx:365-391, 491-492`), and the order in which `Model.setup`, `reset`, `step`, `run` and `finish` call them (`/repo/pywr/_model.pyx:621-627, 641-657, 688-737, 749-815, 862-872`). What is written to the arrays and tables of a file is in `Model/Tables.lean` and `Model/OutputFile.lean`; here a hook is what it does with open files, and whether it raises afterwards is arbitrary. PyTables (not part of the repository) is modelled by what it documents: a name that is open already is refused in mode "w", in mode "r" if it is open for writing, and in modes "a" and "r+" if it is open for reading only; modes "r" and "r+" need the file to exist, "w" and "a" its directory; "w" empties the file. Names that differ are taken to be different files. CPython calls `__del__` when the last reference goes, at once. Permissions, full disks and filters are left out, as are the attributes which PyTables itself writes; a file and a directory do not have the same name. |
| `Model/Hashes` | **File hashes.** `/repo/pywr/hashes.py` (`compute_hash` `:7-15`, `check_hash` `:18-48`), called through `Model.check_hash` (`/repo/pywr/_model.pyx:927-928`) with the model's dictionary `_file_hashes` as cache. |
| `Model/Hydropower` | **Hydropower.** `/repo/pywr/parameters/_hydropower.pyx` (`inverse_hydropower_calculation`, `HydropowerTargetParameter.value`) and `/repo/pywr/recorders/_hydropower.pyx` (`hydropower_calculation`, `HydropowerRecorder`, `TotalHydroEnergyRecorder`). Numbers are exact rationals, flows may be infinite. `turbine_elevation` is declared a C double (`parameters/_hydropower.pxd:12`), so it is never `None` and the `ValueError` of `value()` cannot occur. |
| `Model/Includes` | **Included documents.** `Model._load_includes` and `_load_json_include` (`/repo/pywr/_model.pyx:221-241`, `:248-270`). |
| `Model/Interpolation` | **Interpolated parameters.** `AbstractInterpolatedParameter` with the default keyword arguments (`/repo/pywr/parameters/parameters.py:124-156`), `InterpolatedParameter` (`:159-192`), `InterpolatedVolumeParameter` (`:195-242`), `InterpolatedFlowParameter` (`:245-278`). SciPy's `interp1d(kind="linear", bounds_error=True)` is library code: it is modelled after its documentation (the points are sorted, the two points enclosing the argument are found by bisection, arguments outside the points raise `ValueError`). Other `interp_kwargs` are not modelled. Two points with the same first coordinate divide by zero in the library; here the division gives 0 and no theorem covers the case. |
| `Model/Kde` | **Estimated distributions of volumes.** `GaussianKDEStorageRecorder` and `NormalisedGaussianKDEStorageRecorder` (`/repo/pywr/recorders/kde.py:8-204`) with the parts of `scipy.stats.gaussian_kde` that they use: the bandwidth by Scott's rule, `integrate_box_1d` and the density. Numbers are real. Not modelled: resampling (C77), the data frame (`values` are the numbers it holds for all timesteps and scenarios). |
| `Model/Keywords` | **What is said about a parameter when it is made.** how the constructors of all classes of parameters (`/repo/pywr/parameters/*.pyx`, `*.py`) hand their arguments on to `Parameter.__init__` (`/repo/pywr/parameters/_parameters.pyx:43-48`) and `Component.__init__` (`/repo/pywr/_component.pyx:84-102`): names, comments and tags. Arguments are bound to names as Python does it. A class is the list of the constructors from its own to the last before `Parameter`. Keywords that a constructor takes out of `kwargs` with `pop` count as keyword-only arguments. What the constructors do with their own arguments, and the exceptions they raise for them, is left out; default values other than those of the base classes are not distinguished. |
| `Model/Labels` | **Labels of results.** how the columns of results are labelled (`ScenarioCollection.multiindex`, `/repo/pywr/_core.pyx:190-200`, `Scenario.ensemble_names` `:60-72`) against the combinations the columns were computed for: `ScenarioCollection.setup` (`:130-131`) keeps the combinations, `Model.run` (`/repo/pywr/_model.pyx:637-656`) sets the model up only when it is dirty, and recorders take the labels when a data frame is asked for (`/repo/pywr/recorders/_recorders.pyx:634-645` and others). |
| `Model/Levels` | **Recorded levels, areas, costs and threshold states.** the properties `level` and `area` of a storage (`/repo/pywr/_core.pyx:1240-1280`), the recorders of volume, level and area (`/repo/pywr/recorders/_recorders.pyx:1106-1184, 1305-1358`) and of the unit cost (`:783-811`), the threshold recorders (`/repo/pywr/recorders/_thresholds.pyx:20-122`), the thresholds on the date (`/repo/pywr/parameters/_thresholds.pyx:362-389`) and `DiscountFactorParameter` (`/repo/pywr/parameters/_parameters.pyx:2165-2188`). A row of an array over scenario combinations is a function of the combination (`Memory.Vec`). A parameter is what its `calc_values` computes: a function of the timestep, the combination and the volume of the storage at that moment; its values are stored until the next timestep (`/repo/pywr/parameters/_parameters.pyx:70-85`). |
| `Model/LicencePeriods` | **Licences with a volume for a year, a season or some months.** a whole timestep of an annual, seasonal or monthly virtual storage: `Model.before` (`/repo/pywr/_model.pyx:829-851`), which calls `before` of the nodes first and computes the values of the parameters afterwards, so that a maximum volume that is a parameter still has the value of the timestep before when the volume is replenished; the solve, of which the row of the virtual storage is considered (`vRow` of `Model/VirtualStorage.lean`); and `after`. One scenario. |
| `Model/License` | **Licences.** `/repo/pywr/parameters/licenses.py:66-228` (`StorageLicense`, `AnnualLicense`, `AnnualExponentialLicense`, `AnnualHyperbolaLicense`). One scenario: `_remaining` is a vector on which every statement works elementwise; `_prev_year` is common to all scenarios but does not depend on them. |
| `Model/Lp` | **The linear programmes.** the problems built by the two GLPK solvers: `/repo/pywr/solvers/cython_glpk.pyx:388-750, 838-1093` (`CythonGLPKSolver`, one column per route) and `:1145-1540, 1646-1918` (`CythonGLPKEdgeSolver`, one column per edge). A problem is the list of its rows: matrix entries (column, coefficient) and bounds. What GLPK computes is not modelled. One scenario, one timestep. The options `set_fixed_*_once` (default off) are the subject of `Model/FixedOnce.lean`; the basis handling is not modelled; `use_unsafe_api` is off (default). |
| `Model/LpSolve` | **The lp_solve solver.** `/repo/pywr/solvers/cython_lpsolve.pyx` (`CythonLPSolveSolver`), the third solver: one column per route and one per output. The data are those of `Model/Lp.lean`. Calls into lp_solve are read by its documentation: `set_row_bnds` (`:68-89`) leaves a row with the two bounds it is given, `set_bounds` a column with the two bounds it is given, and values of `DBL_MAX` are infinite for lp_solve. What lp_solve computes is not modelled, nor what it makes of a row that names a column twice or has its bounds crossed (the theorems that compare it with GLPK exclude both). |
| `Model/Memory` | **Parameters with memory.** `FlowDelayParameter` (`/repo/pywr/parameters/_parameters.pyx:2105-2162`), `RollingMeanFlowNodeParameter` (`:2191-2273`), `FlowParameter` (`:1959-2008`), `DeficitParameter` (`:1910-1956`), `DelayNode` (`/repo/pywr/nodes.py:1174-1239`) and the threshold parameters (`/repo/pywr/parameters/_thresholds.pyx:50-115, 150-190, 310-352`). A scenario combination is a number (its global id); a row of a memory array is a function of it. |
| `Model/ModelCache` | **Evaluations with a cached model.** the cache of `/repo/pywr/optimisation/__init__.py:45-123` (`ModelCache`, `MODEL_CACHE`, `BaseOptimisationWrapper`, `clear_global_model_cache`) with `PlatypusWrapper.evaluate` (`/repo/pywr/optimisation/platypus.py:115-154`): one model object is kept for each identifier and used for one evaluation after the other, in every process of its own. A document `J` gives a model with certain variable parameters; the rest of the state of a model object (volumes, memories, recorders …) is `H`. A run computes the results from the document, the variables and that state, and leaves another state (also if it is given up half way, `none`). |
| `Model/MultiSplit` | **Splits of a river.** `MultiSplitLink` (`/repo/pywr/nodes.py:890-1015`), which adds outlets to a `PiecewiseLink`, and its uses `RiverSplit` and `RiverSplitWithGauge` (`/repo/pywr/domains/river.py:106-235`). The nodes created are given by numbers, in the order of creation. Costs, limits of the segments and the flows reported are those of the piecewise link (`Model/Composite.lean`). The order in which errors are detected is not modelled. |
| `Model/Network` | **Nodes of a model: creation, names, deletion and connections.** the graph of nodes of one model: `AbstractNode.__init__` and the name setter (`/repo/pywr/_core.pyx:344-391`), the constructors of the node classes (`/repo/pywr/nodes.py`, `/repo/pywr/domains/river.py`), `NodeMeta.__call__` (`/repo/pywr/nodes.py:188-196`), `NodeIterator` (`/repo/pywr/_model.pyx:935-1011`) and `Connectable` (`/repo/pywr/nodes.py:91-173`). |
| `Model/NodeKeywords` | **What is said about a node when it is made.** how the constructors of all classes of nodes (`/repo/pywr/nodes.py`, `/repo/pywr/domains/river.py`, `/repo/pywr/domains/groundwater.py`) hand their arguments on to `Drawable.__init__` (`nodes.py:18-22`) and `AbstractNode.__init__` (`/repo/pywr/_core.pyx:344-358`): names, comments, tags, parents, domains, positions, colours and visibility. A class is the list of the constructors in the order of method resolution, those before `Drawable` and those between `Drawable` and `AbstractNode`; classes without a constructor are left out. Keywords that a constructor takes out of `kwargs` with `pop` count as keyword-only arguments (a missing one without default raises `KeyError`, here as `TypeError`). What the constructors do with their own arguments, and the nodes they make inside of compound nodes, is left out (`Model/Composite` and others). |
| `Model/NodeLoading` | **Nodes in a document.** `Loadable.pre_load` and `finalise_load` (`/repo/pywr/nodes.py:25-88`), the constructors of the node classes as far as the attributes they assign (`nodes.py:199-1330`, `/repo/pywr/domains/river.py`) and the setters of those attributes (`/repo/pywr/_core.pyx:547-552, 587-595, 639-647, 697-702`, `:1078-1083, 1110-1130, 1190-1195, 1216-1221, 1243-1251, 1264-1272`). Numbers are rationals; an exception is `none`. A parameter is known by its name (a reference in the document, or an inline definition, which is loaded by the same call). Keys that only describe the node (`name`, `comment`, `position`, `color`, `tags`, …), node references and `initial_volume` given by a mapping are left out. Creation of sub-nodes and edges is in `Model/Network.lean` and `Model/Composite.lean`. |
| `Model/NodeRun` | **All nodes of a model over a run.** the node hooks `Model.before`, the solver's commits, `Model.after`, `Model.reset` and `Model.setup` (`/repo/pywr/_model.pyx:626-631, 684-823, 825-860`) together with the `before`/`commit`/`after`/`reset` methods of the node classes. One scenario (the code loops over scenario indices with the same statements). Nodes are numbered `0, 1, …` in the order of `model.graph.nodes()`. |
| `Model/Optimisation` | **Optimisation wrappers.** `/repo/pywr/optimisation/__init__.py:10-42` (`cache_variable_parameters` and the caches), `/repo/pywr/optimisation/platypus.py` (`count_constraints`, `PlatypusWrapper`, `PywrRandomGenerator`) and `/repo/pywr/optimisation/pygmo.py` (`PygmoWrapper`). A variable parameter is seen through its variables and their bounds: setting its variables replaces them (that this is what the parameters do is the subject of `Model/Variables.lean`). What the run of the model does is arbitrary: it yields an aggregated value for every recorder. Integers are unbounded (the cast to 32 bits is left out). The optimisers themselves are not modelled. |
| `Model/OutputFile` | **The arrays and tables of output files.** where `TablesRecorder` (`/repo/pywr/recorders/recorders.py:225-727`, "version 1") and `TablesRecorder2` (`/repo/pywr/recorders/_tables_recorders.pyx`, "version 2") put what they record: the paths of the items, the arrays and tables made by `setup` and `reset`, the dictionary from items to arrays used by `after`, the tables of scenarios, the names given by `generate_dataframes`, and the parameters recorded. The rows of one array and its buffer are in `Model/Tables.lean`; here the content of an array is abstract and each call of the after-hook (or flush of a buffer) is any function of it. PyTables is modelled as a tree: nodes at paths, a node is a group or a leaf; `create_carray` and `create_table` with `createparents=True` make missing groups and raise if there is a node at the path already or a leaf on the way; `remove_node` raises for a group with children. Paths are lists of parts; names with "/" are names of several parts. Simplified: empty parts (`//`, a slash at the end) do not occur, and attributes of nodes are left out. |
| `Model/ParameterLoading` | **Parameters in a document.** `load` of the parameter classes made from other parameters, nodes and numbers (`/repo/pywr/parameters/_control_curves.pyx`, `_thresholds.pyx`, `_polynomial.pyx`, `_hydropower.pyx`, `_parameters.pyx`, `parameters.py`, `licenses.py`), their constructors as far as the attributes they assign, and what a refused construction leaves in the model (`/repo/pywr/_component.pyx:78-101`). `load_parameter` (`_parameters.pyx:2292-2344`) takes `type`, `name` and `tags` from the entries and passes the others to `load`. Numbers are rationals; an exception is `none`. A parameter is known by its name (a reference, or an inline definition, which is loaded by the same call); strings in the place of numbers, and values read from files (`Model/Datasets.lean`), are left out. |
| `Model/Periods` | **Periods of the timestepper.** how `Timestepper` gets its periods from start, end and timestep: `freq` (`/repo/pywr/timestepper.py:154-163`), `offset` (`:165-167`), `datetime_index` (`:176-182`) and the constructor (`:11-22`), with what they ask of pandas: `period_range(start, end, freq)` and `period + offset`. A frequency of pandas is a base (second, minute, hour, day, month, ...) and a multiple. A base divides time into numbered units (`ordinal`): the period with ordinal `o` and multiple `n` lasts from the beginning of unit `o` to the last nanosecond before unit `o + n`; `period_range` takes every `n`-th ordinal from the one that contains `start` to the one that contains `end` (`numpy.arange(start.ordinal, end.ordinal + 1, n)`). A multiple that is not positive is a `ValueError` of pandas ("Frequency must be positive"). Texts are taken as parsed; business days and frequencies pandas does not know are not modelled. |
| `Model/Population` | **The first population of an optimisation.** `PywrRandomGenerator` (`/repo/pywr/optimisation/platypus.py:157-260`) over all its calls: the flag and the pointer it keeps, and how a given solution is read. What `RandomGenerator` of platypus makes is not modelled. A list of values of another length than the variables is refused (numpy would spread a single value, and platypus refuses the wrong number at the end). |
| `Model/Profiles` | **Annual profiles.** the profile parameters of `/repo/pywr/parameters/_parameters.pyx`: `DailyProfileParameter` (`:615-641`), `WeeklyProfileParameter` (`:643-662`), `MonthlyProfileParameter` (`:665-796`), the scenario profiles (`:799-909`), `UniformDrawdownProfileParameter` (`:912-982`), and the checks of the days of the year of `RbfProfileParameter` (`:1111-1124`). Tables are lists of numbers; the conversion of the arguments by `np.squeeze(np.array(values))` is not modelled (a one-dimensional table of floats). A read outside a table gives `none`: the code reads a typed memoryview there (an IndexError, or arbitrary memory when bounds checks are off). |
| `Model/RecorderKeywords` | **What is said about a recorder when it is made.** how the constructors of all classes of recorders (`/repo/pywr/recorders/*.pyx`, `*.py`) hand their arguments on to `Recorder.__init__` (`/repo/pywr/recorders/_recorders.pyx:218-234`) and `Component.__init__` (`/repo/pywr/_component.pyx:84-102`), and the names that recorders get when none is given. A class is the list of the constructors from its own to the last before `Recorder`. Keywords that a constructor takes out of `kwargs` with `pop` count as keyword-only arguments (a missing one without default raises `KeyError`, here `TypeError`); `fdc_agg_func` and `sdc_agg_func` are taken out and not passed on as `temporal_agg_func`. What the constructors do with their own arguments is left out, and so are the checks and conversions by the setters of `is_objective`, `agg_func` and the bounds (modelled in `Model/Constraints` and `Model/Aggregators`). |
| `Model/RecorderLoading` | **Recorders in a document.** `load` of the recorder classes (`/repo/pywr/recorders/_recorders.pyx`, `_thresholds.pyx`, `_hydropower.pyx`, `events.py`, `calibration.py`, `kde.py`), their constructors as far as the attributes they assign, and the names of recorders that are given none, with the readers of documents of `Model/ParameterLoading.lean`. `load_recorder` (`_recorders.pyx:2211-2255`) takes `type` from the entries and passes the others to `load`; the entry `name` is put there by `collect_components` (`/repo/pywr/_model.pyx:414-418`). The recorders that write files (`Model/CsvRecorder.lean`, `Model/OutputFile.lean`), aggregation functions given as mappings or Python functions (`Model/Aggregators.lean`), values read from files and the kinds of nodes and parameters are left out; factors kept in single precision (`_recorders.pxd:45`) are kept as they are. |
| `Model/Recorders` | **Recorders.** recorders of `/repo/pywr/recorders/_recorders.pyx`. A recorder is given by the state its `reset` leaves, its after-hook and its finish-hook. What a hook reads from the rest of the model (flows and maximum flows of its node, values or indices of its parameter, one entry per scenario combination, in the order of the combinations) is an argument. Arrays over combinations are lists; the loops `for scenario_index in combinations: … [scenario_index.global_id] …` are `List.zipWith` (the combinations are numbered `0 … ncomb - 1`, see C04). The length in days and the calendar fields of timestep `k` are given as functions of `k` (the timestepper shows timestep `k` while the hooks of timestep `k` run, see C50). Numbers are exact rationals. |
| `Model/References` | **Loading components from a document.** the loading of named parameters and recorders: `Model.load_from_dict` (`/repo/pywr/_model.pyx:411-457`), `load_parameter` (`/repo/pywr/parameters/_parameters.pyx:2292-2346`), `load_recorder` (`/repo/pywr/recorders/_recorders.pyx:2211-2255`), the name check of `Component` (`/repo/pywr/_component.pyx:94-102`) and the look-up of components by name (`/repo/pywr/_model.pyx:127-137`, `:1021-1026`). |
| `Model/Rerun` | **Running again with parameters that have memory.** The hooks of `Model.reset`, `Model.before` and `Model.after` (`/repo/pywr/_model.pyx:768-823, 825-860`) for nodes (`Model/NodeRun.lean`) together with components that keep something from one timestep to the next: nodes first, then the `before` of all components, then the values of all parameters in order of their dependencies; after the solution the nodes, then the `after` of all components. One scenario. |
| `Model/Resample` | **Time series on the timesteps of a model.** `align_and_resample_dataframe` and its helpers (`/repo/pywr/dataframe_tools.py:20-156`) for one column and the default aggregation (`mean`), as used by `DataFrameParameter` (`/repo/pywr/parameters/_parameters.pyx:212-228`) and the comparison recorders (`/repo/pywr/recorders/calibration.py:30-35`). Days are numbered; a missing value (NaN) is `none`. Pandas is not part of the repository: `resample(freq).agg("mean")` on periods groups the rows by the period their first day lies in, periods being counted from the first row, and takes the mean of the values that are not missing; `ffill` takes the value of the last row that starts no later; the new index reaches from the first day to the last day of the data; aggregating to a *finer* calendar frequency keeps the values at the first of the new periods and leaves the others missing (`asfreq`). Frequencies are multiples of a day (`Tick`), or calendar periods (months, weeks, years: `DateOffset`). |
| `Model/ResultTables` | **Tables of results.** `Model.to_dataframe` (`/repo/pywr/_model.pyx:874-881`), `ModelResult.to_dict` and `.to_dataframe` (`:1067-1105`), `align_series` (`/repo/pywr/notebook/figures.py:17-56`) and the profiler (`/repo/pywr/profiler.py:12-77`). What pandas does with tables is written out: `concat(axis=1)` puts columns side by side and matches rows by their labels. |
| `Model/Ring` | **Ring buffers.** The code keeps fixed-length memories with a pointer: `memory[pointer] = x; pointer = (pointer + 1) % n` (`/repo/pywr/_core.pyx:1526-1536` RollingVirtualStorage, `/repo/pywr/parameters/_parameters.pyx:2136-2150` FlowDelayParameter, `:2228-2252` RollingMeanFlowNodeParameter, `/repo/pywr/recorders/_recorders.pyx:1590-1607, 1680-1700`). |
| `Model/River` | **River nodes: catchments, discharges and gauges.** `Catchment` and `Discharge` (`/repo/pywr/domains/river.py:22-55, 236-243`) and `RiverGauge` (`:246-300`): which limits and costs the constructors and the later assignments leave on the nodes handed to the solver. Values are finite numbers (parameters are evaluated before). |
| `Model/RollingRecorders` | **Rolling and storage recorders.** `/repo/pywr/recorders/_recorders.pyx:1182-1240` (`NumpyArrayNormalisedStorageRecorder`), `:1554-1630` (`RollingWindowParameterRecorder`) and `:1632-1702` (`RollingMeanFlowNodeRecorder`). |
| `Model/Routes` | **Route enumeration.** `/repo/pywr/_model.pyx:496-582` (`Model.find_all_routes`). |
| `Model/Run` | **Running a model.** `/repo/pywr/_model.pyx:600-872` (`Model.step`, `_step`, `run`, `setup`, `reset`, `before`, `after`, `finish`), the caching of the component order (`flatten_component_tree`, `:883-904`) and `/repo/pywr/model.py:168-271` (`MultiModel.dirty`, `setup`, `reset`, `_step`, `run`). What the hooks of nodes, components, the scenario collection and the solver do is arbitrary: each call looks at and changes an arbitrary "world" and may raise. All calls are logged in the order in which they are made. Simplification: a hook does not change the structure of the model while it runs (no node or component is added, the timestepper is not touched). Profiling and timing are left out. |
| `Model/Sankey` | **Diagrams of the routes.** the routes table and the array of route flows of the tables recorders (`/repo/pywr/recorders/_tables_recorders.pyx:450-507, 586-591`, `/repo/pywr/recorders/recorders.py:587-635, 672-678`) and `routes_to_sankey_links` (`/repo/pywr/notebook/sankey.py:6-74`). Arrays are functions with their sizes; there is one axis of scenarios. Flows are rationals. Not modelled: `rename_func` and `callback_func` that have a memory, aggregation functions for the time axis that depend on more than the values of one column, NaN (from averaging nothing). |
| `Model/ScenarioTables` | **Parameters with a value or profile for each ensemble member.** `ConstantScenarioParameter` (`/repo/pywr/parameters/_parameters.pyx:515-546`), `ConstantScenarioIndexParameter` (`:1228-1259`), `ArrayIndexedScenarioMonthlyFactorsParameter` (`:549-612`), `ScenarioMonthlyProfileParameter` (`:799-832`), `ScenarioWeeklyProfileParameter` (`:834-870`), `ScenarioDailyProfileParameter` (`:872-909`), `ScenarioWrapperParameter` (`/repo/pywr/parameters/parameters.py:359-405`), the look-up of a scenario's position (`ScenarioCollection.get_scenario_index`, `/repo/pywr/_core.pyx:156-158`) and `Parameter.calc_values` (`_parameters.pyx:70-75`). Values are exact numbers; two-dimensional arrays are lists of rows of equal length; a raised exception is `none`. |
| `Model/Scenarios` | **Scenarios and scenario combinations.** `/repo/pywr/_core.pyx:42-208` (`Scenario`, `ScenarioCollection`). |
| `Model/Schematic` | **Diagrams of the network.** `pywr_model_to_d3_json` (`/repo/pywr/notebook/__init__.py:171-234`) and `pywr_json_to_d3_json` (`:294-362`), which make the diagrams of a model and of a document. Nodes of a model are given by their names, which are unique (C55), and a part of a compound node by the name of that node. The classes of a node are in `Model/ClassTrees`. Not modelled: positions, the attributes of the nodes of a model (`get_node_attr`), the web page. |
| `Model/Setters` | **Assigning parameters to attributes of components.** the setters that keep the dependencies of a component in step with its attributes: `parameter_property` (`/repo/pywr/parameter_property.py:1-26`), the four attributes of `HydropowerTargetParameter` (`/repo/pywr/parameters/_hydropower.pyx:134-168`), `water_elevation_parameter` of the two hydropower recorders (`/repo/pywr/recorders/_hydropower.pyx:117-124, 222-229`), `threshold` of the threshold parameters (`/repo/pywr/parameters/_thresholds.pyx:118-132`) and `control_curves` of the control curve parameters (`/repo/pywr/parameters/_control_curves.pyx:47-68, 322-343`). Components are numbers. A value that is not a component (a number, `None`) has no dependency (`/repo/pywr/_component.pyx:18-32`); it is `none` here. Simplified: components count as true, which an aggregated parameter without parameters does not (C73_empty_fails). |
| `Model/Simulation` | **A whole simulation.** Puts together the parts: in every timestep (`/repo/pywr/_model.pyx:584-700`) the parameters are evaluated, the solver builds and solves a linear programme for the present volumes (`Model/Lp.lean`), commits the flows, and the storages (`Model/Storage.lean`) and virtual storages (`Model/VirtualStorage.lean`) take their new volumes. `Runs` is one scenario, `Ensemble` the scenarios of a model together (the solver keeps nothing from one scenario to the next, C85; what is computed for one scenario may depend on all of them). The values of the parameters, costs, limits, conversion factors, and the times at which virtual storages are active or refilled (`/repo/pywr/nodes.py:596-758`) are any function of everything that has happened since the start. GLPK may return any solution (or any least-cost solution) of the problem it is given. Routes and the graph do not change during a run. |
| `Model/Single` | **The factor of an array recorder, kept in single precision.** `NumpyArrayNodeRecorder` keeps its `factor` as a C `float` (`cdef public float factor`, `/repo/pywr/recorders/_recorders.pxd:41-44`) and records the flow times that number (`/repo/pywr/recorders/_recorders.pyx:599-624`); the other recorders with a factor keep it as a Python object (`:1764-1802`, see `Model/Doubles.lean`). Flows and data are doubles; one scenario; NaN is not modelled. |
| `Model/SolveErrors` | **Bad numbers, failed solves and interrupted timesteps.** which numbers the route solver hands to GLPK in a timestep (`/repo/pywr/solvers/cython_glpk.pyx:875-1021`), what the checked and unchecked setters make of them (`:251-335`), the attempts to solve (`:1028-1063`), the loop over the scenarios (`:821-831`), and a timestep of the model around it (`/repo/pywr/_model.pyx:621-631`). The edge solver (`cython_glpk.pyx:1634-1918`) has the same checks, with the costs of single nodes in place of those of routes, and no second attempt. Numbers are doubles with infinities and NaN; rounding and overflow are not modelled. |
| `Model/SolverArrays` | **The flat arrays of the GLPK solvers.** how the solvers keep and read their data in flat arrays (`/repo/pywr/solvers/cython_glpk.pyx`): node costs and route costs (`:421-422, 500-512, 708-726, 879-897`), the cached rows of aggregated nodes with factors (`:637-673, 903-926`, `:1456-1499, 1727-1750`), the dictionaries of the virtual storage and aggregated node rows (`:608-619, 685-698`, `:1426-1438, 1512-1527`), the edge costs (`:1689-1721`), the collection of the flows (`:1071-1088`, `:1889-1911`) and the memory allocated for a row. In `_solve_scenario` the checks of indices are switched off (`:833-835, 1646-1648`): an access outside an array is undefined; here it is `none`. `Model/Lp.lean` states directly what these arrays stand for. |
| `Model/SolverLimits` | **Limits and messages of the simplex method.** the control parameters (`smcp`) of the solvers in `/repo/pywr/solvers/cython_glpk.pyx`: `GLPKSolver.set_solver_options` (166-172), and which of them each call of the simplex method is made with (`_solve_scenario`, 1025-1063; edge solver, 1849-1886). `presolve` is the subject of `Model/Basis`. What GLPK does with the limits is not modelled: whether a call succeeds is given. Limits that do not fit a C `int` (`OverflowError`) and exceptions raised inside GLPK itself (which leave the parameters as they are) are left out. |
| `Model/SolverOptions` | **Choice of the solver and its options.** `_parse_env_kwarg` and the wrapper classes `CythonGLPKSolver`/`CythonGLPKEdgeSolver` (`/repo/pywr/solvers/__init__.py:17-35`, `:75-109`, `:201-236`), the keyword arguments of the solvers they wrap (`/repo/pywr/solvers/cython_glpk.pyx:153-164`, `:379-386`, `:1140-1146`), the choice of the solver class in `Model.__init__` (`/repo/pywr/_model.pyx:74-75`, `:95-112`) and in `Model.load_from_dict` (`:343-351`, `:364-371`). |
| `Model/Storage` | **Storage nodes.** `/repo/pywr/_core.pyx:941-1039, 1130-1182, 1289-1361` and the storage rows of the LP `/repo/pywr/solvers/cython_glpk.pyx:966-990` (route solver; the edge solver has the same text `:1790-1815`). One scenario is modelled; the code runs the same statements for every scenario index independently. |
| `Model/Tables` | **Output files.** `TablesRecorder2` of `/repo/pywr/recorders/_tables_recorders.pyx` (and, with a buffer of one timestep, the rows of `TablesRecorder` of `/repo/pywr/recorders/recorders.py:640-678`): the number of buffered timesteps, the after- and finish-hooks, the items recorded and the columns of `generate_dataframes`. A file array is a list with one entry per timestep; the entry (a "row", the values of all combinations) is abstract. One array and its buffer are modelled: the three arrays of a node (and the arrays of the other items) are written by the same statements with the same indices. Not modelled: PyTables, the array of route flows, attributes and metadata. |
| `Model/Timestepper` | **Timestepper.** `/repo/pywr/timestepper.py:10-162` (`Timestepper`). Instants are nanosecond integers (pandas `Timestamp.value`). A pandas `Period` is reduced to its first and last nanosecond. `pandas.period_range` and the addition of an offset to a period are parameters (`Pandas`): the theorems hold for whatever calendar pandas implements. |
| `Model/Values` | **Values of parameters in documents.** where the numbers of a parameter come from: `load_parameter_values` (`/repo/pywr/parameters/_parameters.pyx:2349-2385`) with `load_dataframe` (`/repo/pywr/dataframe_tools.py:159-206`, the selections are those of `Verif.Datasets`), `Parameter.load` (`_parameters.pyx:125-142`), the constructors of the parameters with an array of values (`:287-289`, `:307-320`, `:520-531`, `:627-634`, `:648-659`, `:697-704`, `:810-821`, `:849-860`, `:887-898`) and their `value` methods, and the entry without `type` (`:2319-2323`). Arrays are a shape and the numbers in row-major order. Numbers are of an abstract type. In a document the numbers are given as one number, a list or a list of lists (deeper lists are not modelled). A table is read by pandas, which is a parameter of the model, as is the treatment of dates (`dataframe_tools.py:208-221`). Options are texts. |
| `Model/Variables` | **Variables of parameters.** the parameters that can be variables of an optimisation: `ConstantParameter` (`/repo/pywr/parameters/_parameters.pyx:144-188`), `OffsetParameter` (`:1858-1907`), `MonthlyProfileParameter` (`:697-796`), `RbfProfileParameter` (`:985-1183`), `AnnualHarmonicSeriesParameter` (`:1315-1408`), `BinaryStepParameter`, `RectifierParameter` and `LogisticParameter` (`/repo/pywr/parameters/_activation_functions.pyx:7-160`) and `ControlCurveParameter` (`/repo/pywr/parameters/_control_curves.pyx:419-548`): `set_double_variables`, `get_double_variables`, `set_integer_variables`, `get_integer_variables`, the bounds where they are computed, and the values that follow from the variables (those of the activation functions are in `Model/Functions.lean`). An exception is `none`; what an assignment did before raising is not modelled. Numbers are exact; infinite bounds are `none`. scipy's radial basis function and the cosine are parameters. Two parameters sharing one numpy array (`ControlCurveParameter.values` keeps a float64 array given to it without copying) are not modelled. |
| `Model/VirtualStorage` | **Virtual storages.** `/repo/pywr/_core.pyx:1458-1536` (VirtualStorage, RollingVirtualStorage), `/repo/pywr/nodes.py:596-758` (Annual, Seasonal and MonthlyVirtualStorage) and the virtual storage rows of the LP `/repo/pywr/solvers/cython_glpk.pyx:991-1019`. One scenario; the code repeats the same statements per scenario. |
| `Model/Watching` | **Recorders that watch a run.** `AssertionRecorder` (`/repo/pywr/recorders/recorders.py:37-110`), `ProgressRecorder` and `JupyterProgressRecorder` (`/repo/pywr/recorders/progress.py:8-94`). Numbers are rational and `none` is NaN; infinite values are left out. Times are given from outside. |
| `Model/WeightedProfile` | **Combined and recorded profiles.** `WeightedAverageProfileParameter` (`/repo/pywr/parameters/_control_curves.pyx:554-623`) and `NumpyArrayDailyProfileParameterRecorder` (`/repo/pywr/recorders/_recorders.pyx:1426-1492`). Components a parameter depends on are reset before it (C01), so that the tables of interpolated profiles are those of this run. Aggregation of the recorded profile is C57. |

### Not modelled

* Floating-point rounding, except for the volumes of storages and their rows (`Model/Float64`), for totals, virtual storages and control curves (`Model/Doubles`) and for the flows of nodes (`Model/DoubleFlows`); overflow; the sign of zero.
* GLPK and lp_solve themselves: any answer satisfying the rows (and, where said, of least cost) is allowed. Their return codes and the
  second attempt after a failure are inputs of `Model/SolveErrors`.
* Reading files (pandas, HDF, Excel), drawing (the data handed to the diagrams is modelled), the command line,
  the optimisers themselves (platypus, pygmo, borg).
* scipy's radial basis functions and the cosine (parameters of the model), user functions, logging.
* Constructors and `load` methods of classes not listed in the table above.

## Findings: where the code departs from the property

Every entry is a theorem with a concrete witness (the model of the code violates the property as stated); the positive
part that does hold is the `_partial` theorem of the same property. The text is the theorem's own docstring.

* `C02_fails` — **C02 fails.** A threshold parameter created before the multiple-threshold parameter is evaluated *after* it, so the index is computed from the threshold's value of the previous timestep.
* `C04_fails_with_slices` — **C04 fails with slices.** The flat-index conversion of a column's own indices is refused (index out of bounds) as soon as a slice does not start at member zero; so the first sentence of C04 needs its "no slices" hypothesis.
* `C05_fails` — **C05 fails (last sentence).** Adding a scenario after setting the table leaves rows with too few entries.
* `C07_fails` — **C07 fails:** the last nanosecond of a period is refused, because `start < period.end_time` excludes it.
* `C09_fails` — **C09 fails:** the sum is one nanosecond short when the timestep crosses a new year. Witness: two days from 1970-12-31.
* `C100_attributes_fails` — Asking for the attributes raises an exception for a document with a list, such as the costs of a piecewise link, and for one without parameters.
* `C100_classes_fails` — With two such bases the bases of the first are missing.
* `C100_storage_fails` — Storages are no special kind of `Node`: a reservoir or an aquifer does not count as a storage in a diagram.
* `C100_virtual_fails` — Rolling and monthly virtual storages are shown as boxes in the diagram of a document, not in that of the model.
* `C101_constant_fails` — A volume that never changes, such as that of a reservoir that is always full, or a single value after resampling: an exception instead of an estimate, at the end of the run.
* `C101_full_fails` — The probability of a volume of at most 100% is never 1, as what has been folded back once and leaves on the other side is lost.
* `C101_normalised_density_fails` — The density of normalised volumes, which are between -1 and 1, is given from 0 to 1 only: nothing of what the probability is about.
* `C102_count_fails` — **C102 (count).** The calls are counted: after timesteps without exception the count has grown by their number. Finishing never complains, whatever the count.
* `C102_never_called_fails` — An assertion that has never been checked should be reported, but passes, with or without another exception.
* `C102_speed_fails` — **C102.** The speeds account for the time from the start of the run to the last message: each is the number of steps between two messages divided by the time between them. But one timestep too few is counted: with at most a hundred timesteps, the steps of all speeds of a complete run add up to those of all timesteps but one.
* `C102_zero_fails` — Near zero the comparison is exact: a value that differs from an expected zero by the smallest rounding error is rejected.
* `C103_invalid_fails` — A list with something that is neither a parameter nor a number is rejected, but the control curves that remain in use are no longer dependencies.
* `C103_shared_fails` — The same parameter as two attributes, such as the minimum and the maximum flow of a hydropower target: when one is replaced, the component no longer depends on the other one, and replacing that raises an exception.
* `C103_stuck_fails` — The same parameter twice among the control curves: they can never be replaced again, and the parameter is no longer a dependency after the first attempt.
* `C104_frames_fails` — **C104 fails (names of data frames).** Arrays of the same last names in different groups give data frames of the same name: which is which is not told.
* `C104_names_fails` — **C104 fails (names, version 1).** A node and a parameter with the same name, recorded with default paths, cannot be recorded together by version 1.
* `C104_remove_fails` — **C104 fails (removal).** A parameter recorded at two paths is still recorded after a removal but no longer a child of the recorder, and cannot be removed again.
* `C104_routes_fails` — **C104 fails (flows of routes).** A file with the flows of routes cannot be made into data frames, unless there is just one route: the columns do not match the combinations.
* `C104_slash_fails` — **C104 fails (slashes).** The names `a/b` and `a_b` of parameters give the same default path, and such parameters cannot be recorded together by either version.
* `C104_slices_fails` — **C104 fails (slices).** A slice without a start or without a stop (`slice(3)`, `"slice": [3]`) selects members as usual, but a run that writes an output file raises.
* `C104_tables_fails` — **C104 fails (tables).** A table made by `reset` (time, routes) at the path of one made by `setup` (scenarios) replaces it without an error.
* `C104_twice_fails` — **C104 fails (recorded twice).** A node or parameter listed at two paths is written at the last one only: whatever the history, the array at the first path stays as it was made.
* `C105_aggregated_fails` — A number given to the constructor of `AggregatedParameter` is kept as it is; in a document it becomes a `ConstantParameter`.
* `C105_both_fails` — A document with both `values` and `parameters` is refused, while the constructor takes the values.
* `C105_hydropower_fails` — A number is refused as the target, the least or the greatest flow of `HydropowerTargetParameter`; so it is for the parameters above.
* `C105_index_curve_fails` — `control_curve` is an entry of the other control curve parameters, not of `ControlCurveIndexParameter`.
* `C105_no_curves_fails` — What is missing: a document without control curves is accepted, and the parameter has one value for all volumes; the constructor needs `control_curves`.
* `C105_null_fails` — `null` is accepted in the place of the parameter that is to be negated, compared, shifted or divided.
* `C105_numbers_fails` — Numbers stand for constants among the control curves, and are refused among the parameters of the same parameter.
* `C105_threshold_values_fails` — The two values of a threshold parameter may be of any number.
* `C105_timestep_licence_fails` — **C105 fails for `TimestepLicense`**: it is registered for documents, but whatever a document says it cannot be loaded, although it can be made with the same arguments.
* `C105_used_name_fails` — What is missing: a construction that is refused for the values of its arguments leaves a component with its name; the corrected construction is then refused because of the name.
* `C106_fixed_fails` — What fails: `get_fixed_min_flow` is not a number if the other limit is a parameter, although the lower limit itself is fixed.
* `C106_none_fails` — What fails: the lower limit of an aggregated node is 0 unless `None` is assigned, and minus infinity then.
* `C106_refused_fails` — What fails: a refused assignment is not without effect. A parameter is gone, and the attribute is again the number it was before the parameter was assigned (of a new node: its default).
* `C107_aggregated_fails` — An aggregated recorder needs `agg_func` or `recorder_agg_func`, although both have defaults according to their description: without them it is refused.
* `C107_factors_fails` — The factors of an annual total are not counted.
* `C107_null_fails` — `null` is accepted in the place of the parameter by which a storage is normalised; a recorder of a parameter refuses it.
* `C107_rolling_fails` — What is missing: every other entry is lost without a word, those of the base class and those that do not exist included.
* `C107_scenario_fails` — What is missing: a scenario in the document must be one of the model, and has no other effect: the recorder is the one without it.
* `C107_unnamed_fails` — So two recorders of events without names cannot be in one model, nor can two recorders of one class of one node, nor two of constants.
* `C107_window_fails` — A window with a fraction is cut off in a document; the constructor refuses it.
* `C108_small_fails` — **C108 fails** for costs that are very close: the route solver treats costs of routes below 1e-8 as zero, so that it may give all water to the demand of higher cost.
* `C109_volume_fails` — **C109 (large volumes).** With volumes of this size the bounds are not kept: a flow that the storage's row admits exactly empties the storage to below its minimum, and the snapping does not catch it. All numbers are doubles.
* `C110_options_fails` — **C110 fails** for the options of a parameter whose values are in a file: whatever pandas makes of the file, the constructor gets none of the options of the document (they are handed to pandas), so that for instance `interp_day` has no effect or is refused. From a table, the same options have their effect.
* `C110_single_fails` — **C110 fails** for scenarios of one member: the same numbers are accepted in the document, and refused in a table.
* `C111_index_fails` — **C111 (curves).** The exact band is not always found: a storage below its curve by less than the rounding counts as above it.
* `C111_interpolated_fails` — **C111 (interpolating control curves).** The value does not lie between the two values exactly: with 10 at the top, at the curve 0.4 and at the bottom, a storage filled to 45 % gives more than 10.
* `C111_piecewise_fails` — **C111 (piecewise interpolation).** At the upper end the upper value is not always reached, and it may be exceeded: from 0.2 to 0.9 gives less than 0.9 for a full storage, from 0.3 to 0.9 more.
* `C111_total_fails` — **C111 (large totals).** A total is not exact however many timesteps follow: from 2⁵³ on, adding a flow of 1 per day changes nothing, so that any amount of water may be missing.
* `C112_align_fails` — **C112 (aligned series).** Two series of the same name (the flow of the same node in two runs, say) are not returned as series: each result is the table of both. And series without a common time are an error.
* `C112_levels_fails` — **C112 (all recorders).** Recorders that have tables each do not always have one together: with more than one scenario, an array recorder and an event recorder in the same model make `to_dataframe` of the model fail.
* `C113_balance_fails` — **C113: the flows do not balance exactly.** Three inputs that deliver 2.5, 3.4 and 1.4 (as doubles) to an output: the output receives more than the inputs deliver.
* `C113_edge_chain_fails` — **C113: halves of the smallest double.** A link that takes in and gives out the smallest positive double has no flow.
* `C113_limit_fails` — **C113: a limit is exceeded by rounding.** Three routes with flows 2.5, 3.4 and 1.4 through a node with a maximum flow of 7.3, all as doubles: their exact sum is within the limit, the committed flow is 7.300000000000001.
* `C114_annual_fails` — **C114: an annual licence is exceeded by rounding.** The last three days of a year, each with the flow that the licence allows.
* `C114_storage_fails` — **C114: a licence is exceeded by rounding.** Ten days with a flow of 0.1: the value of the licence (1 in total) is never exceeded, but all together is more than 1.
* `C115_bare_fails` — With `create_directories`, the name of a file in the working directory is refused always, though the directory is there: `os.makedirs("")` raises. Without `create_directories` it is accepted.
* `C115_frames_fails` — A generator of `generate_dataframes` that was not exhausted and is still referenced keeps later runs from writing the file, and the results of a run that is not finished cannot be read.
* `C115_setup_twice_fails` — `model.setup(); model.setup()` raises for a model with a recorder given the name of its file, as does `model.setup()`, a change of the model, `model.run()`; after that (`run` finishes) it works.
* `C115_stuck_fails` — `TablesRecorder2` with a buffer: if, in the first run, something raises in `reset` after the recorder (here the solver), `finish` raises too, as there is no current timestep; the file stays open; and every later run, whatever happens in it, raises because of that, for ever.
* `C116_first_fails` — **C116 fails** for a monthly licence that is as many months old at the start as it lasts, with a maximum volume that is a parameter: it is replenished in the first timestep, before the parameter has been computed, to whatever the memory contains. (The annual class takes the initial volume then.) Here the licence is for 10, and 1000 are used.
* `C116_stale_fails` — **C116 fails** for a maximum volume that changes: it is replenished to what the maximum was in the timestep before. Here the licence is for 100 in 2000 and for 10 in 2001, and 100 are used on the first of January 2001.
* `C117_large_fails` — **C117 fails for large factors.** With the factor 1e39 everything recorded is infinite (or NaN for flow zero), where the mean flow with the same factor is an ordinary number.
* `C117_single_fails` — **C117 fails for other factors.** With the factor 0.1, as a double, and a flow of 1e9, an array recorder records 100000001.49 where a `TotalFlowNodeRecorder` with the same factor gives 100000000; the factor read from the array recorder is not the one that was set.
* `C119_relaxed_fails` — **C119 fails below 1e-8.** An input and an output with minimum and maximum flow five can be supplied. When the minimum flow of the input is lowered by 5e-9, nothing is feasible any more: limits closer than 1e-8 fix the flow at the lower limit.
* `C11_narrow_bounds_fails` — **C11 (the bound 2e-6 is needed).** With bounds less than 1e-6 apart a single timestep can change the volume by more than 1e-6.
* `C120_currency_fails` — **C120 fails below 1e-8 (costs).** A supply that costs 1 and is not needed is not used; in a currency in which it costs 1e-9, using it is optimal for the route solver.
* `C120_units_fails` — **C120 fails below 1e-8 (flows).** A flow fixed at 5e-8 is supplied; in units ten times as large, the flow of 5e-9 is not feasible: the limits count as zero.
* `C121_dearer_fails` — **C121 fails below 1e-8.** A supply that costs nothing and is not used is used fully when its cost is raised to 5e-9: both allocations are optimal for the route solver, for which both costs are zero.
* `C122_edge_fails` — **C122 fails for the edge solver if an aggregated node counts both ends.** On the direct connection the flow counts once against the limit of the aggregated node, with a link in between it counts twice: a flow of 8 under a limit of 10 is feasible without the link and infeasible with it. (The route solver counts it once in both cases.)
* `C122_unused_fails` — **C122 (a connection no route takes).** If no route takes the connection, the route solver refuses the model with the link.
* `C123_closed_fails` — **C123 fails for an input in the middle of a route (route solver).** Water passes through it although it is closed.
* `C123_grouped_fails` — **C123 fails for an input in the middle of a route (route solver).** Its own upper limit of 3 does not count what passes through it, and 5 may pass; given to an aggregated node or to a licence the same limit counts it, and 5 may not pass.
* `C124_small_fails` — **C124 fails below 1e-8.** Two supplies of 6e-9 each can deliver nothing, as the solver takes either limit for zero; one supply of 1.2e-8 can deliver 1.2e-8.
* `C130_memory_fails` — **C130 fails for parameters that remember.** The limit of the input follows the flow of the last timestep: it is 8 in the second timestep of the run, but 10 in the first timestep of a model started with the volumes after the first timestep; that model can pass 10 through the input, the run cannot.
* `C130_years_fails` — **C130 fails for counts of years.** A year with the threshold reached before and after the cut is counted twice.
* `C131_timedelta_fails` — **C131 fails for a `timedelta` with hours.** Timesteps of 36 hours are asked for; the timestepper makes timesteps of 24 hours and says nothing. Half a day is refused, although the text "12H" is not.
* `C133_units_fails` — **C133 fails for volumes within 1e-6 of a limit.** A storage that is full but for half a millionth of a unit, and to which nothing happens, counts as full after the timestep; in units a thousand times smaller it stays as it is.
* `C137_dataframe_fails` — But the constructor passes `*kwargs` for `**kwargs` (`_parameters.pyx:207`): the first further keyword itself is the name of a data frame parameter, the second its comment, the third its tags, whatever is said with them; it is never variable; with more than three it cannot be made; and a second one with the same first keyword in a model is refused.
* `C138_two_fails` — The recorders of two parameters without names cannot both be without names: they would have the same.
* `C139_colour_fails` — The colour of an input cannot be given: it is red in any case, also that of a catchment, which is meant to be green. River nodes are not blue, although their constructor says so.
* `C139_position_fails` — What is given by position to one class is not taken in the same way by those derived from it or like it: the nodes of an annual licence and the name of a gauge have to be keywords; a storage ignores what comes after the numbers of its outputs and inputs.
* `C14_fails` — C14, exact form, is false: with a window of two timesteps and a licence of 10, a use of `5e-7` is forgotten by the volume and the full 10 can be used in the next timestep.
* `C17_coarse_fails` — C17 is false for timesteps that jump over the off-season: here from February (winter season over the new year) to November of the same year.
* `C17_first_season_fails` — C17 is false for a winter season (1 October to 31 March) when a daily run starts on 30 September: the node is inactive for the whole first season, being switched off on the very day the season starts.
* `C17_first_timestep_fails` — C17 is false for the first timestep of a run that starts after the season: a season from April to September, starting in October. The node constrains flows in the first timestep although it is out of season.
* `C17_rerun_fails` — C17 is false for a second run of the same model object over the same year: the first run ends with the off-season of that year recorded, `reset` keeps it, and the second run applies the licence out of season, at the start and at the end.
* `C18_aggregated_constant_fails` — **C18 fails for aggregated storages** over a storage whose maximum volume is a constant parameter: the fraction with which the first run starts depends on what happened to be in the memory, and can be anything but zero; that of later runs is right. The storage itself starts with the right fraction.
* `C18_aggregated_varying_fails` — **C18 fails for aggregated storages** over a storage whose maximum volume varies: the second run starts with the fraction for the maximum of the last timestep, not with that given for the storage and not, in general, with that of the first run.
* `C18_fails` — **C18 fails** when something (for example an annual licence or an interpolated flow parameter, which read `prev_flow` in the first timestep) depends on the previous flow of a child node: `Model.reset` skips children, so the second run starts from the last flow of the first.
* `C19_composite_fails` — **C19 fails**, witness: after a timestep with flow 5 (10 for the aggregated node) the previous flow is 0 in the next one.
* `C19_inactive_fails` — **C19 fails** for a virtual storage (such as a seasonal one) in a timestep following an inactive one: it ended the inactive timestep with flow 0, but the previous flow is still the one of the last active timestep.
* `C20_fails` — **C20 fails** when a route passes through two members: the row counts the route once, the reported flow counts it once per member. A maximum of 10 is exceeded by the reported 20.
* `C21_fails` — **C21 fails** for an input in the middle of a route (allowed when connecting nodes): the rows count the routes passing through it, the reported flow does not. Members 1 (input, fed by input 0) and 3 (link) with equal factors report 0 and 1.
* `C21_few_fails` — **C21 fails** for an aggregated node with factors and fewer than two members: neither solver has any solution, since the problem cannot be set up (GLPK is asked to add no rows, or a negative number of them). A single member with a factor, trivially proportional, stops the model.
* `C21_series_error` — Members of an aggregated node with factors on a common route make the row unbuildable (GLPK refuses the duplicate column).
* `C22_edge_fails` — **C22 and C53 fail** for the edge solver with two domains: the column of the edge between the domains is in no row and costs nothing, yet is added to the flows of both ends. Here the output (1) has maximum 5, and 105 is reported for it although only 5 enter it.
* `C23_edge_fails` — **C23 fails** for the edge solver with two domains, for the same reason: all costs are 1, the objective is 20, but the sum of reported flow times cost is 220.
* `C24_fails` — **C24 fails** when members of an aggregated node follow each other on a route: the route problem counts the water once, the edge problem once per member. Here the limit is 10; the route solver may send 10, the edge solver at most 5.
* `C25_nan_fails_unsafe` — **C25 fails for the opt-in `use_unsafe_api=True`:** there a NaN limit is stored without an error.
* `C27_linked_fails` — **C27 fails** for segments which an aggregated node with factors (that of a `MultiSplitLink`) keeps in a ratio: in a cost-optimal solution segment 3 carries flow although the cheaper segment 2 is not full.
* `C28_resetup_fails` — Repeated `setup`: after a gross loss of 100 %, a smaller loss factor leaves the net flow blocked (`net.max_flow` stays 0), so nothing can pass the node although its loss factor is below 1.
* `C28_zero_parameter_fails` — **C28 fails** for a loss factor given as a parameter in a timestep in which its value is 0 (documented: "If zero then no-losses are calculated"): the solver divides by the factor, so no solution is computed, whatever the network.
* `C31_full_curve` — **C31 fails** for a first curve at 100 % (descending, but touching the top): a full storage gets the second value, not the first.
* `C32_first_fails` — **C32 fails** for node thresholds: the documentation says that in the first timestep the predicate is true (`_thresholds.pyx:42-45`), yet for every predicate, every flow and every scenario the index is then 0, also when the comparison itself would hold.
* `C32_ratchet_fails` — **C32 fails** for a recorder threshold with ratchet: its first value 1 (the default) is not remembered, so the index falls back from 1 to 0 in spite of the ratchet.
* `C33_dependencies_fails` — **C33 fails**: when a parameter was given twice, removing it once leaves it in the list of parameters but removes the dependency, so the aggregate may be evaluated before it; and it can not be removed a second time.
* `C35_late_start_fails` — **C35 fails** when the run does not start at the first timestep (`Model.reset(start=...)`): the parameter looks at the timestep number instead of the number of flows stored, so in the first timestep of such a run it is the mean of a cleared memory (0), not the initial flow.
* `C36_turn_fails` — **C36 fails** for longer timesteps at the turn of the year: an unused licence may be taken at its full amount per day in a week starting on 31 December; the following year then starts with six times the amount taken already, and the value of the licence is negative.
* `C37_fails` — **C37 fails**: with a reset on the first of January, from 28 February to 1 March 2015 the profile falls by two days' worth, and on 31 December 2015 (364 days after the reset, one day before the next) it has already fallen to the residual.
* `C39_negative_start_fails` — **C39 fails** without the condition on the first breakpoint, which is documented but not checked: with a negative first breakpoint the value is zero for all inputs beyond it.
* `C40_mean_coupled_fails` — **C40 fails in coupled runs.** In every coupled run over the same `n` dates that returns normally, a mean flow recorder of any sub-model but the first holds the total divided by `n - 1`: the mean times `n / (n - 1)`.
* `C40_mean_fails` — Two coupled models over three days; the second has a mean flow recorder on a node whose flow is always one. The hypotheses of `C40_coupled` and `C40_mean_coupled_fails` are met, and the recorded "mean" is 3/2.
* `C40_mean_single_fails` — **C40 fails in coupled runs of one timestep.** No coupled run over a single date returns normally when some sub-model but the first has a mean flow recorder: its finish-hook divides by zero.
* `C41_annual_fails` — **C41 fails for negative indices.** With threshold 0 a year in which the index was always −1 is counted.
* `C41_feb29_fails` — **C41 fails for the 29th of February.** When the included dates start on a day that a year of the run does not have, the first timestep of that year raises (`pd.Timestamp(2001, 2, 29)`), whatever the indices are.
* `C42_fraction_fails` — **C42 fails for fractional values.** "An event is considered active while the value of the threshold is non-zero", but a parameter value strictly between −1 and 1 never triggers.
* `C42_unfinished_fails` — **C42 fails for events in progress.** An event of one timestep that is in progress at the end is recorded although the minimum length is three.
* `C43_neg_inf_fails` — **C43 fails for the upper bound `-inf`.** It is accepted, but reads back as absent; the recorder is then no constraint; and a larger lower bound is accepted.
* `C44_infinite_fails` — **C44 fails for infinite upper bounds.** With the default (infinite) upper bound, if the run at infinity is not feasible, the search repeats that run for ever.
* `C44_lower_bound_fails` — **C44 fails at the lower bound.** The lower bound itself is never tested: when only values within epsilon of it are feasible, the search raises "no feasible solutions" although the lower bound is feasible.
* `C45_changed_fails` — **C45 fails for files that change.** A file that was checked once is not read again by later checks: new content that does not match the expected digest passes, and new content that does match is reported as a mismatch.
* `C46_cycle_fails` — **C46 fails for files that include each other.** A document that includes a file that includes itself is never loaded: the loop does not end.
* `C46_file_fails` — **C46 fails for documents read from a file.** A scenario in an included file becomes two scenarios.
* `C47_untyped_fails` — **C47 fails for definitions without a type.** A named parameter without `type` (plain values) is refused when nothing refers to it and when two things refer to it, but taken silently as a number — no parameter with that name exists — when exactly one other definition refers to it.
* `C48_aggregated_fails` — **C48 fails for the aggregated node of a `LossLink`** (and of a `MultiSplitLink` with factors): it has no parent and stays in the model, although the nodes it refers to are gone.
* `C48_break_link_fails` — **C48 fails for the parts of a `BreakLink`.** They have no parent and stay in the model when the node is deleted.
* `C48_children_fails` — **C48 fails for sub-nodes of storages.** Every storage has sub-nodes of the same names.
* `C48_failed_creation_fails` — **C48 fails for creations which end in an exception.** The sub-nodes which exist by then stay in the model; their parent is not in the model.
* `C48_lookup_fails` — **C48 fails for names of sub-nodes.** The name of a sub-node may be given to a node; a look-up then finds the sub-node, and a deletion by name removes it.
* `C48_reconnect_fails` — **C48 fails for nodes which have been deleted.** A connection from or to such a node puts it back into the model, without a check of its name: here there are two nodes "A" afterwards.
* `C49_finish_raises_fails` — **C49 fails when a finish-hook raises.** The models after the one whose finish raised are not finished.
* `C49_scenarios_again_fails` — **C49 fails when run again after the error about the scenarios.** The sub-models count as set up when their scenarios are compared, so the comparison is made only once: a second `run` of the same inconsistent models goes through all timesteps and returns normally.
* `C49_truncation_fails` — **C49 fails for models of different lengths.** When one sub-model has fewer timesteps than another, the run ends normally after the shorter one: the other model silently misses its remaining timesteps.
* `C50_cycle_ignored_fails` — **C50 fails after a cycle was found**, in a run: a model is run for one day; then its components are made to depend on each other and its end is set to the second day, and the run raises, as it should. Running it again returns normally, without any call of a component.
* `C50_finish_raises_fails` — **C50 fails when a finish-hook raises.** The components after the one whose `finish` raised are not finished.
* `C50_masked_fails` — **C50 fails: the first exception is lost.** Component 0 raises in its setup, and the only other thing that can raise is finishing component 1 before it was ever reset. The exception that comes out of `run`, and that an `except` clause of the caller sees, is the second one, not the cause; when component 0 can be set up the same model runs.
* `C50_new_component_fails` — **C50 fails for components created after the model was set up.** A recorder (component 0) created after a run takes no part in the next run: although the run returns normally, the recorder is never set up, reset, updated or finished.
* `C50_second_try_fails` — **C50 fails after a setup that raised**, in a run: a model is run for one day; then its end is set to the second day, for which component 0 has no data, and the run raises in the setup of component 0. Running it again goes through both days and returns normally, although component 1 (a recorder, say) was set up only for one day.
* `C50_setup_raises_fails` — **C50 fails after a setup that raised.** A model that had been set up and whose timestepper was changed since counts as set up after `Model.setup`, even if the setup of a node or component raised: the timestepper is marked as clean before anything else is set up. So the next run only resets it.
* `C51_long_slice_fails` — With an end beyond the ensemble (`slice(0, 9)`, which Python and the model limit to the ensemble) it raises `IndexError`.
* `C51_negative_end_fails` — With an end counted from the end of the ensemble (`slice(0, -1)`) it raises `ValueError`.
* `C51_one_column_fails` — A frame with a single column passes the checks whatever the size of the scenario; the members after the first then raise `IndexError` during the run.
* `C51_one_column_selected_fails` — When members are selected as well (`slice(0, 3)` of four, or combinations given by the user), such a frame is refused, with an `IndexError`, as soon as a member after the first is selected; with the first alone it is taken.
* `C51_open_slice_fails` — With a slice that has no end (`slice(1, None)`, accepted by the model and run) the parameter cannot be set up: `slice.indices(None)` raises `TypeError`.
* `C51_reversed_slice_fails` — With a negative step (`slice(3, 1, -1)`: members 3 and 2 are run) set up succeeds without loading the members, and every value raises `IndexError`.
* `C51_tables_offset_fails` — Tables with more rows than the run has timesteps: looking one step ahead at the last timestep reads the row after the run when all members are run, but repeats the last timestep's row when the members are given by a slice, although the slice selects all members.
* `C52_zero_target_fails` — When there is no head and no minimum head, the flow asked for is infinite (or the maximum flow) even for a target of zero, although a flow of zero produces that target and is within the limits: the conclusion of `C52_round_trip_partial` fails without its hypothesis on the head.
* `C54_empty_fails` — **C54 fails** for a virtual storage without nodes (nothing to count, so that its volume should stay the same): its row has no entries and is refused by both solvers, so that no model with such a storage has a solution.
* `C54_fails` — **C54 fails** for a node listed twice (factors 1 and 2): the row charges only the first factor, the volume falls by both; the available volume 5 is exceeded (the volume would become -10).
* `C55_compound_fails` — **C55 fails for connections to compound nodes.** `node.disconnect(loss_link)` raises a `TypeError`.
* `C55_from_storage_fails` — **C55 fails for connections from a storage.** They start at a sub-node: `storage.disconnect(node)` raises a `TypeError`, and `storage.disconnect()` leaves them without a word.
* `C56_arguments_fails` — **C56 fails for options given when loading.** An option passed to `Model.load` in `solver_args` is discarded when the document has a solver section, even if the section sets no option: the solver is created as if it had not been given.
* `C56_messages_fails` — **C56 fails for messages after a solve that failed**: whatever level was given, and whether or not the solver is set up or reset in between, all later calls are made with the level for debugging.
* `C57_recorders_fails` — **C57 fails for the median.** An aggregated recorder accepts the functions `median` and `count_nonzero`, but its `values()` always raises.
* `C57_recorders_nan_fails` — **C57 fails for NaN values.** The greatest of NaN and 1 is NaN across scenarios, but 1 across recorders; and the greatest of NaN alone is minus infinity.
* `C57_temporal_fails` — **C57 fails over time.** With `ignore_nan` a recorder that aggregates over time never has values, even if no value is NaN: `values()` always raises.
* `C59_last_year_fails` — **C59 fails in the last year.** A run of the single year 1970 whose last timestep (two days, flow 1) starts on 31 December: only one of the two days is recorded.
* `C60_flow_fails` — **C60 (flow input) fails**: parameters are evaluated after `before` has set the flows of all nodes to zero (`/repo/pywr/_model.pyx:839-848`), so a polynomial of a node's flow, documented as the previous flow, is the same constant in every timestep of every run, whatever flowed.
* `C60_rectifier_fails` — **C60 (rectifier at zero) fails**: `min_output` is documented as the value at 0, but the value at 0 is 0.
* `C61_fails` — **C61 fails** for an aggregated node that was added to the model before a piecewise link it contains: its flow misses the link's flow.
* `C63_normalised_fails` — **C63 fails at the ends.** With the control curve at 100 % a full reservoir stops the run with a division by zero; with the control curve at 0 an empty reservoir is recorded as 0, not as −1.
* `C65_no_steps_fails` — Without a segment of its own (`nsteps = 0`) only the first factor is used, and for the last of the extra outlets: the others have no share at all.
* `C65_split_fails` — **C65 fails at the outlets.** The ratio is enforced between the segments only, and every segment also leads to the first outlet. So, although a split with factors 1 : 1 is documented to distribute the flow in a fixed ratio, there is a cost-optimal solution in which the 10 units entering it all leave through its first outlet and none through the second one.
* `C66_pygmo_equality_fails` — **C66 fails for equality constraints with pygmo.** The wrapper passes the value itself instead of its distance to the bound: with both bounds 5, a run with the value 5 (feasible) is reported as infeasible, and a run with the value 0 (infeasible) as feasible.
* `C66_pygmo_integers_fails` — **C66 fails for integer variables with pygmo.** The integers are not set but appended to the doubles, which raises an error, whatever the decision vector is.
* `C67_bounds_length_fails` — **C67 fails (too few bounds).** The number of explicit bounds of the days is not checked: the constructor accepts two lower and upper bounds for three variable days, and asking for the types of the variables raises an IndexError.
* `C67_curve_duplicate_fails` — **C67 fails (repeated index).** A control curve with the same variable index twice does not return what was set.
* `C67_range_fails` — **C67 fails (days beyond the year).** The bounds declared by `variable_days_of_year_range` can lie beyond day 365: the constructor accepts the days 1, 100 and 360 with a range of ten days, declares the bounds 350 to 370 for the last one, and the assignment of 370 during an optimisation raises an exception.
* `C68_cost_fails` — **C68 fails (changed cost).** With `set_fixed_costs_once`, a cost given as a number that is changed after the first run is ignored by all further runs: setting it does not make the model dirty, and a reset does not read it again.
* `C68_factor_fails` — **C68 fails (replaced factor).** With `set_fixed_factors_once`, an aggregated node whose factors were all constant when the solver was made and one of which varies by the time of a later run makes every such run raise; without the option the reset is accepted whatever the factors are.
* `C68_replaced_fails` — **C68 fails (replaced limit).** With `set_fixed_flows_once`, replacing a limit given as a number by a parameter whose value varies makes the next run fail: the reset still takes the limit for constant, reads NaN, and GLPK refuses it. Without the option the run goes on.
* `C69_again_fails` — **C69 (running again).** A coupled model in which an earlier model reads a parameter of a later one does not repeat itself: in the first timestep of the first run it reads memory which was never written, in the first timestep of the second run the last value of the first run.
* `C69_duplicate_fails` — **C69 (duplicate names).** Two sub-models of the same name are not refused: the second silently takes the place of the first.
* `C69_solver_fails` — **C69 (solver).** The `solver` given to `MultiModel.load` has no effect, although `load_from_dict` would use it.
* `C69_timestep_fails` — **C69 (length of the timesteps).** The `timestep` given for the coupled model has no effect: a coupled document asks for timesteps of seven days, and its sub-model runs with the one day of its own document. (The loader assigns to `timestepper.timestep`; the setting is called `delta`.)
* `C70_columns_fails` — **C70 fails for user-defined combinations and slices.** A scenario of size 2 with the user-defined combinations `[[1], [0]]`: the columns are labelled `[0]`, `[1]`, that is each with the other's ensemble member. With the single combination `[[1]]`, or with a slice selecting one member, making the data frames raises.
* `C70_coupled_fails` — **C70 fails for other sub-models.** A coupled run of three timesteps with two buffered timesteps: the last row of the file of a recorder of the second sub-model is never written (the timestepper of the sub-model is not advanced past the last timestep, `C40_coupled`); it always sees 5, and the file was created with zeros.
* `C70_items_fails` — **C70 fails for names of two characters and for node objects.** In a model with nodes `ab` and `b`, asking for `ab` records node `b` (at the path `a`); without a node `b` it raises `KeyError`. Node objects, which the documentation allows, raise `TypeError`.
* `C70_restart_fails` — **C70 fails when a model is reset to a later start.** After a complete run of four timesteps (buffer of four), resetting the model to start at timestep 3 and stepping once overwrites the rows of timesteps 0 to 2 by uninitialised memory.
* `C70_zero_fails` — **C70 fails without timesteps in the buffer.** `buffer_timesteps = 0` is accepted, and the first timestep raises.
* `C71_changed_fails` — **C71 fails when the selection is changed between runs.** A model with a scenario of two members is run, then the user asks for the combinations `[[1], [0]]` and runs it again: the model is not set up again, the columns are still computed for members 0 and 1, but labelled 1 and 0. With the slice `1:2` the results still have two columns and the labels are one.
* `C72_coupled_fails` — **C72 fails in other sub-models of a coupled run.** There the timestepper is not advanced past the last timestep (`C40_coupled`): an event in the last of three daily timesteps is recorded with a duration of zero days.
* `C73_attribute_fails` — **C73 fails (plain attributes).** `parameter` of a negative, maximum, minimum or offset parameter can be assigned, but the new parameter is not registered.
* `C73_empty_fails` — **C73 fails (empty aggregated parameters).** An aggregated parameter without children counts as false, so replacing it as the input of an interpolation leaves it registered: using the interpolation in it later makes a model that is refused for a cycle, though no parameter refers to itself.
* `C73_removed_fails` — **C73 fails (removed once).** A parameter is twice among the children of an aggregated parameter and one use is removed: the other one is no longer registered.
* `C73_shared_fails` — **C73 fails (one parameter used twice).** Numerator and denominator of a division are the same parameter and the numerator is replaced: the denominator is no longer registered, the division is evaluated before it and uses its value of the previous timestep (here 4 instead of 10). Replacing the denominator too then raises an error.
* `C75_document_fails` — **C75 fails (documents).** The `scenario` of a deviation recorder is read from the document but not used: the targets are assigned to the combinations in order, whatever the member (here the two columns are exchanged) - or refused, if there are more combinations than members.
* `C76_one_series_fails` — **C76 fails (one series).** One observed series cannot be compared with several scenarios: an exception, whatever the metric and the flows.
* `C77_annual_fails` — **C77, fails.** Annual data on a monthly model: the documentation promises forward filling, but the default aggregation leaves every month but the first of a year missing, and the frame is refused.
* `C77_end_fails` — **C77, fails.** Data that end before the run are refused only if a whole timestep has none: here the run has 14 days and the data 8, and the second week gets the value of its first day.
* `C77_gap_fails` — **C77, fails.** A gap in daily data is refused on a daily model, but not on a model with longer timesteps: the mean is taken over the days that are left.
* `C77_uneven_fails` — **C77, fails.** Rows of two days on timesteps of three days: every day has data and the frame is accepted, but a row counts only for the timestep in which it starts, and then as much as a whole row: the first timestep (days with 0, 0, 6: mean 2) gets 3 and the second (6, 9, 9: mean 8) gets 9.
* `C78_exceeds_fails` — **C78, fails** for longer timesteps. The node need not keep to a licence that is used as a cost; a week over the end of a year with a large flow leaves less than nothing for the new year, and the exponential licence exceeds its documented maximum.
* `C78_week_fails` — **C78, fails** for longer timesteps. The value of a storage licence is a volume but limits a flow: a node that keeps to it takes up to the length of the timestep times the licensed amount.
* `C79_domain_fails` — **C79 fails in another domain than the default one.** A break link accepts a `domain`, but does not pass it to its nodes: with everything in domain 1, the link can be used and the break link gives a model that the solver refuses.
* `C79_loop_fails` — **C79 fails for the route solver in loops.** A route passes no node twice, so that no route takes a link that leads back, and the route solver refuses the model; the routes of a break link end there and begin anew, and it lets water go round.
* `C79_members_fails` — **C79 fails for the route solver if an aggregated node has members on both sides.** The route solver counts a route once for an aggregated node, however many members it passes; a break link cuts the route in two, and both halves count. Under a limit of 10 the link lets 10 through and the break link 5.
* `C80_flow_fails` — **C80 fails for flows in the first timestep:** a run starts with a previous flow of zero (`/repo/pywr/_core.pyx:468-473`), so flows that all are positive stop every run in its first timestep.
* `C81_early_fails` — **C81 fails before the model is set up:** reading `initial_level` of any aquifer is a `TypeError` (the interpolator does not exist yet, `/repo/pywr/parameters/parameters.py:129`).
* `C81_fraction_fails` — **C81 fails when a fraction was given:** an aquifer created with `initial_volume_pc` ignores a later `initial_level` — the fraction wins (`/repo/pywr/_core.pyx:1143-1149`). Here the level is set to 20 (volume 20 of 25), but the run starts with the fraction 1/5, at volume 5 and level 5.
* `C82_aggregated_fails` — The limits and factors of an aggregated node can be given in a document, but none of them to the constructor.
* `C82_aquifer_fails` — A document with the area and storativity of an aquifer is refused, whatever they are: the constructor does not get the area.
* `C82_catchment_fails` — A catchment with `flow=None` supplies anything from nothing to an unlimited amount: `None` is zero for the minimum and infinity for the maximum.
* `C82_curve_fails` — A control curve given by name is refused in a document, though the constructor takes the parameter.
* `C82_null_fails` — The constructor takes `min_volume=None` for zero, but a document with `null` is refused.
* `C82_reservoir_fails` — Loading a reservoir with both costs from a document gives a reservoir whose cost is `cost` at every volume: the control curve is made with a cost of zero, and then replaced by the plain `cost`.
* `C82_split_fails` — The costs of a split with `n` steps and `extra` extra slots: the constructor takes `n` of them, a document must have `n + extra`; so with an extra slot, of which there is always one, no list is accepted by both.
* `C83_discharge_fails` — **C83 (discharges, violation).** `Discharge` "sits inline to the river network": with the route solver the water of the catchment passes it and its own is added (4 + 3 arrive), with the edge solver the same model can not be run.
* `C84_offset_fails` — **C84 fails for factors with an offset**: lp_solve reads the variable of a constant parameter instead of its value. Factors `1 + 1` and `1` ask for flows in ratio two to one, which GLPK enforces; lp_solve enforces equal flows.
* `C84_over_fails` — **C84 fails for storages above their maximum** (a falling `max_volume`): GLPK is given zero for the room that is left, lp_solve a negative number, so that the reservoir has to spill at once. A model that GLPK solves has no solution for lp_solve.
* `C84_parameter_fails` — **C84 fails for aggregated nodes with a parameter as limit**: lp_solve does not set the model up, whatever else it contains.
* `C84_stale_fails` — **C84 fails for aggregated nodes whose limits change**: `setup` writes them once (setting them does not make the model dirty), GLPK reads them in every timestep.
* `C85_presolve_fails` — **C85 fails (presolver).** With `use_presolve`, running a model again after a reset need not give the flows of the first run, even if the solver always returns an optimal solution: `reset` does not put `has_presolved` back, so that only the first run after a setup uses the presolver.
* `C86_lengths_fails` — **C86 fails (lengths).** Storages and profiles of different number are accepted and the surplus silently dropped: here the profile of the second storage is missing, and the average is that of the first alone.
* `C86_parameter_fails` — **C86 fails (constant maximum volume).** A storage whose maximum volume is a constant parameter, which the code means to allow, is refused: `is_constant` is called although it is an attribute.
* `C87_options_fails` — **C87 fails** for the options of the writer, which the documentation describes: a recorder given any of them cannot be made.
* `C87_stale_fails` — **C87 fails** after timesteps that were not finished: the rows of the new run are followed by the end of the old text.
* `C88_cycle_fails` — **C88 fails** (same runs with both solvers) for networks with cycles: the edge solver may let water go round between two links, which no route does.
* `C89_level_fails` — **C89 fails** for the level at the end of the timestep: the recorded level does not belong to the volume recorded in the same row, here for a reservoir whose level is its volume and that goes from 10 to 4.
* `C90_rows_fails` — **C90 fails** for a column together with a list of rows: although all labels are there, there is an `IndexingError`; and the message about missing rows does not name them.
* `C90_suffix_fails` — **C90 fails** for a parameter class whose name does not end in "Parameter": it is not found under its name with this ending, although the code means to take the ending off (as it does for recorders).
* `C90_web_fails` — **C90 fails for web addresses**: in a document read from a file (so that the directory of the model is known) data given by an address such as `https://…` are looked for in a file under that directory; for every address, type and list of checksums, nothing is ever checked or read at the address itself. Without a directory it is passed on as it is.
* `C91_uid_fails` — **C91 fails** for an identifier given for two documents: the second wrapper evaluates the model of the first.
* `C92_child_fails` — **C92 fails** for a licence on a node with a parent: the previous flow of the last timestep of the first run is taken from the licence at the beginning of the second.
* `C93_custom_fails` — The bare name "custom" is accepted, but there is no function to call.
* `C93_dict_case_fails` — The same name in capital letters is accepted as a string and refused in a dictionary.
* `C93_refused_fails` — A refused assignment loses the user function: the aggregator has none afterwards.
* `C93_round_trip_fails` — Without those conditions: a percentile read back has lost its argument, and the aggregation that gave a number is an error.
* `C94_factors_fails` — The parameters that an aggregated node has as factors are kept in a list, which is overlooked: a parameter the node refers to is reported. (Numbers given as factors become such parameters too.)
* `C95_delete_fails` — Deleting from a collection does not take the component out of the model: whatever is deleted from whichever collection, the components stay as they are (and the name stays taken). Putting something into one goes through, and changes nothing either.
* `C95_failed_constructor_fails` — A constructor that fails leaves its component in the model, half made: the name is taken, and trying again is refused.
* `C95_same_name_fails` — Giving a component the name it has is refused, as if another component had it.
* `C95_setitem_fails` — The key of an item assignment is not looked at: afterwards the key is not found.
* `C96_factors_fails` — With fewer factors than members (which nothing prevents) the solver reads beyond the end of the array of factors, unchecked: here for the first member without factor, if it has a column at all.
* `C96_memory_fails` — For the row of an aggregated node too little memory is asked for, whatever the number of columns: all but one byte of the last entry (of four or eight bytes) is written beyond its end.
* `C97_infinite_fails` — **C97 fails for infinities.** An infinite cost and its opposite on a route make a NaN, and the solve is refused though no NaN was given; and a storage without an upper limit is solved with an infinite bound.
* `C97_interrupted_fails` — **C97 fails for interrupted timesteps.** When the second scenario raises, the flow out of the storage in the first scenario is reported though its volume has not changed; when the exception is caught and the model stepped on, the volume falls by the flow of the second timestep only: over the two timesteps the storage has supplied 10 and lost 5.
* `C97_unsafe_fails` — **C97 fails for the unchecked interface.** A NaN is handed to GLPK, and whatever simplex makes of it is used.
* `C98_added_fails` — When a document is added to a model, the model keeps its settings, except that it loses its metadata.
* `C98_existing_fails` — Loading a document into a model that has a node of the same name raises an exception, and leaves the other nodes of the document in the model, without parameters or connections.
* `C98_order_fails` — An entry that refers to a sub-node can be loaded only if it comes after the entry the sub-node belongs to.
* `C98_solver_args_fails` — Arguments for the solver are ignored when the document names a solver.
* `C98_twice_fails` — Of two entries with the same name only the second counts: nothing is made of the first, and nobody is told.
* `C99_aggregation_fails` — The aggregation over the scenarios cannot be chosen: whatever is given as `scenario_agg_func` the mean is taken. Of flows of 0 and 10 in two scenarios the diagram shows 5 when the largest is asked for.

### Noticed while reading, without consequences for the claims

* `RollingMeanFlowNodeRecorder` allocates its data with `np.empty`; its memory and that of `RollingWindowParameterRecorder` are not cleared at a reset; the rows of a run do not depend on them (C64).
* `AggregatedNode.get_constant_factors` is documented to return NaN but raises `NotImplementedError`.
* The setters of `min_flow` and `max_flow` of aggregated nodes do not mark the model as changed; this has no effect, as their rows always exist and their limits are written at every solve.

## Trusted base

* Lean 4.33.0 kernel; axioms used by the theorems: at most `propext`, `Classical.choice`, `Quot.sound` (checked by `#print axioms`).
* That the definitions in `Verif/Model` transcribe the cited code faithfully (by reading; the code is not run).
* Exact arithmetic in place of IEEE doubles (C109 treats the volumes of storages with every operation rounded); behaviour of pandas, networkx, numpy, GLPK as stated where used.
