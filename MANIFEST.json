{
 "claims": [
  {
   "property": "C01",
   "status": "proved",
   "theorems": [
    "Verif.Components.C01_order",
    "Verif.Components.C01_cycle_rejected",
    "Verif.Components.C01_values",
    "Verif.Components.C01_construction_order_irrelevant"
   ],
   "note": "Full property on the model of GraphInterface/flatten_component_tree and the calc loop."
  },
  {
   "property": "C02",
   "status": "partial",
   "theorems": [
    "Verif.Components.C02_fails",
    "Verif.Components.C02_partial"
   ],
   "note": "The code violates the property: the multiple-threshold parameters do not register thresholds; negation proved with a witness, positive part for registering constructors."
  },
  {
   "property": "C03",
   "status": "proved",
   "theorems": [
    "Verif.Scenarios.C03_no_scenarios",
    "Verif.Scenarios.C03_complete",
    "Verif.Scenarios.C03_lexicographic",
    "Verif.Scenarios.C03_error_iff",
    "Verif.Scenarios.C03_count"
   ],
   "note": ""
  },
  {
   "property": "C04",
   "status": "proved",
   "theorems": [
    "Verif.Scenarios.C04_global_id",
    "Verif.Scenarios.C04_no_scenarios",
    "Verif.Scenarios.C04_injective",
    "Verif.Scenarios.C04_position",
    "Verif.Scenarios.C04_shape",
    "Verif.Scenarios.C04_fails_with_slices"
   ],
   "note": "C04_fails_with_slices shows that the restriction to models without slices in the property is necessary."
  },
  {
   "property": "C05",
   "status": "partial",
   "theorems": [
    "Verif.Scenarios.C05_accept_iff",
    "Verif.Scenarios.C05_other_refused",
    "Verif.Scenarios.C05_verbatim",
    "Verif.Scenarios.C05_fails",
    "Verif.Scenarios.C05_partial"
   ],
   "note": "Acceptance and verbatim use proved; the code lets a table become invalid when a scenario is added later (C05_fails), C05_partial is what remains true."
  },
  {
   "property": "C06",
   "status": "proved",
   "theorems": [
    "Verif.Timestepper.C06_iterates",
    "Verif.Timestepper.C06_full_pass",
    "Verif.Timestepper.C06_setters_deferred",
    "Verif.Timestepper.C06_not_stale",
    "Verif.Timestepper.C06_setter_dirty",
    "Verif.Timestepper.C06_length"
   ],
   "note": ""
  },
  {
   "property": "C07",
   "status": "partial",
   "theorems": [
    "Verif.Timestepper.C07_fails",
    "Verif.Timestepper.C07_partial",
    "Verif.Timestepper.C07_unique",
    "Verif.Timestepper.C07_microseconds"
   ],
   "note": "The code refuses the last nanosecond of every period (start < end_time); everything else proved."
  },
  {
   "property": "C08",
   "status": "proved",
   "theorems": [
    "Verif.Calendar.C08_leap_rule",
    "Verif.Calendar.C08_same_index",
    "Verif.Calendar.C08_injective",
    "Verif.Calendar.C08_range",
    "Verif.Calendar.C08_onto",
    "Verif.Calendar.C08_feb29",
    "Verif.Calendar.C08_week"
   ],
   "note": ""
  },
  {
   "property": "C09",
   "status": "partial",
   "theorems": [
    "Verif.Calendar.C09_fails",
    "Verif.Calendar.C09_partial",
    "Verif.Calendar.C09_attribution"
   ],
   "note": "The two parts sum to one nanosecond less than the timestep when it crosses a new year; everything else proved."
  },
  {
   "property": "C10",
   "status": "proved",
   "theorems": [
    "Verif.Storage.C10_volume_in_bounds",
    "Verif.Storage.C10_row_complete",
    "Verif.Storage.C10_above_maximum"
   ],
   "note": ""
  },
  {
   "property": "C100",
   "status": "partial",
   "theorems": [
    "Verif.Schematic.C100_boxes",
    "Verif.Schematic.C100_links",
    "Verif.Schematic.C100_made",
    "Verif.Schematic.C100_same_partial",
    "Verif.Schematic.C100_document_made",
    "Verif.Schematic.C100_attributes_partial",
    "Verif.Schematic.C100_values",
    "Verif.Schematic.C100_virtual_fails",
    "Verif.Schematic.C100_attributes_fails",
    "Verif.ClassTrees.C100_classes_partial",
    "Verif.ClassTrees.C100_classes_order_partial",
    "Verif.ClassTrees.C100_classes_pywr",
    "Verif.ClassTrees.C100_classes_same",
    "Verif.ClassTrees.C100_classes_fails",
    "Verif.ClassTrees.C100_storage_fails"
   ],
   "note": "Monthly and rolling virtual storages are shown in diagrams of documents only (C100_virtual_fails). Attributes cannot be shown for documents with a list among the items of a node or without parameters (C100_attributes_fails). Links of a node to itself are left out of diagrams of models. The classes of a box are complete for classes with one kind of Node among their bases, which all of pywr have; with two, those of the first are missing (C100_classes_fails), and a reservoir or aquifer does not count as a storage (C100_storage_fails)."
  },
  {
   "property": "C101",
   "status": "partial",
   "theorems": [
    "Verif.Kde.C101_made",
    "Verif.Kde.C101_meaning",
    "Verif.Kde.C101_plain",
    "Verif.Kde.C101_probability",
    "Verif.Kde.C101_density",
    "Verif.Kde.C101_points",
    "Verif.Kde.C101_normalised",
    "Verif.Kde.C101_constant_fails",
    "Verif.Kde.C101_full_fails",
    "Verif.Kde.C101_normalised_density_fails"
   ],
   "note": "A volume that never changes makes the run raise at its end (C101_constant_fails). The probability of at most 100% is less than one, as mass is folded back only once (C101_full_fails). The density of normalised volumes covers only 0 to 1 of their range from -1 to 1 (C101_normalised_density_fails)."
  },
  {
   "property": "C102",
   "status": "partial",
   "theorems": [
    "Verif.Watching.C102_assertion",
    "Verif.Watching.C102_first",
    "Verif.Watching.C102_progress",
    "Verif.Watching.C102_success",
    "Verif.Watching.C102_bar",
    "Verif.Watching.C102_speed_fails",
    "Verif.Watching.C102_count_fails",
    "Verif.Watching.C102_never_called_fails",
    "Verif.Watching.C102_zero_fails"
   ],
   "note": "The speeds count one timestep less than were simulated (C102_speed_fails). The check that the assertion was called at all never fires (C102_never_called_fails). Values that should be zero must be exactly zero (C102_zero_fails)."
  },
  {
   "property": "C103",
   "status": "partial",
   "theorems": [
    "Verif.Setters.C103_no_extra",
    "Verif.Setters.C103_exact_partial",
    "Verif.Setters.C103_assigned",
    "Verif.Setters.C103_assigned_curves",
    "Verif.Setters.C103_shared_fails",
    "Verif.Setters.C103_stuck_fails",
    "Verif.Setters.C103_invalid_fails"
   ],
   "note": "Holds as long as no parameter is used in two places of the same component. If it is, replacing one use loses the dependency of the other one and later assignments raise (C103_shared_fails, C103_stuck_fails); a rejected list of control curves loses the dependencies of those that stay in use (C103_invalid_fails)."
  },
  {
   "property": "C104",
   "status": "partial",
   "theorems": [
    "Verif.OutputFile.C104_run_partial",
    "Verif.OutputFile.C104_refused",
    "Verif.OutputFile.C104_twice_fails",
    "Verif.OutputFile.C104_tables_fails",
    "Verif.OutputFile.C104_kinds",
    "Verif.OutputFile.C104_names",
    "Verif.OutputFile.C104_names_fails",
    "Verif.OutputFile.C104_slash_fails",
    "Verif.OutputFile.C104_remove_partial",
    "Verif.OutputFile.C104_remove_fails",
    "Verif.OutputFile.C104_slices_partial",
    "Verif.OutputFile.C104_slices_fails",
    "Verif.OutputFile.C104_ensemble",
    "Verif.OutputFile.C104_frames_partial",
    "Verif.OutputFile.C104_frames_fails",
    "Verif.OutputFile.C104_routes_fails"
   ],
   "note": "Holds when every item is recorded once and no path leads through another one (and nothing else is accepted, C104_refused). Fails: an item at two paths is written at the last only; the time table may replace the table of scenarios; version 1 cannot record a node and a parameter of the same name; a slice without start or stop raises; data frames of arrays with the same last name are indistinguishable and are not possible with flows of routes; removing a parameter recorded twice loses the dependency."
  },
  {
   "property": "C105",
   "status": "partial",
   "theorems": [
    "Verif.ParameterLoading.C105_same",
    "Verif.ParameterLoading.C105_refused",
    "Verif.ParameterLoading.C105_curves_partial",
    "Verif.ParameterLoading.C105_no_curves_fails",
    "Verif.ParameterLoading.C105_both_fails",
    "Verif.ParameterLoading.C105_index_curve_fails",
    "Verif.ParameterLoading.C105_numbers_fails",
    "Verif.ParameterLoading.C105_aggregated_fails",
    "Verif.ParameterLoading.C105_null_fails",
    "Verif.ParameterLoading.C105_hydropower_fails",
    "Verif.ParameterLoading.C105_threshold_values_fails",
    "Verif.ParameterLoading.C105_levels",
    "Verif.ParameterLoading.C105_interpolated_levels",
    "Verif.ParameterLoading.C105_piecewise_levels",
    "Verif.ParameterLoading.C105_unchanged_partial",
    "Verif.ParameterLoading.C105_names",
    "Verif.ParameterLoading.C105_used_name_fails",
    "Verif.ParameterLoading.C105_timestep_licence_fails",
    "Verif.Constructors.C105_constructor",
    "Verif.Constructors.C105_document"
   ],
   "note": "Holds for twenty classes, and for the control curve parameters with values when the curves are given and not both values and parameters. Fails: control curve parameters without curves are accepted in documents only; values together with parameters are refused in documents only; ControlCurveIndexParameter does not know control_curve; numbers are no parameters in some lists; null parameters are accepted; thresholds may have any number of values; a refused parameter stays in the model under its name; TimestepLicense cannot be loaded at all (C105_timestep_licence_fails)."
  },
  {
   "property": "C106",
   "status": "partial",
   "theorems": [
    "Verif.Attributes.C106_all",
    "Verif.Attributes.C106_wrong_size",
    "Verif.Attributes.C106_ends",
    "Verif.Attributes.C106_no_cost",
    "Verif.Attributes.C106_aggregated",
    "Verif.Attributes.C106_constant",
    "Verif.Attributes.C106_flows",
    "Verif.Attributes.C106_fixed_fails",
    "Verif.Attributes.C106_assign",
    "Verif.Attributes.C106_assigned",
    "Verif.Attributes.C106_refused_fails",
    "Verif.Attributes.C106_refused_partial",
    "Verif.Attributes.C106_none_partial",
    "Verif.Attributes.C106_none_fails",
    "Verif.Attributes.C106_commit_all",
    "Verif.Attributes.C106_commit_ends"
   ],
   "note": "Fails: a refused assignment (something that is no number) removes a parameter, and the attribute falls back to the number it was before; None assigned to the lower limit of an aggregated node is minus infinity while a new one has 0; the fixed lower limit is NaN if the upper one is a parameter."
  },
  {
   "property": "C107",
   "status": "partial",
   "theorems": [
    "Verif.RecorderLoading.C107_same",
    "Verif.RecorderLoading.C107_refused",
    "Verif.RecorderLoading.C107_parameter",
    "Verif.RecorderLoading.C107_deviation_partial",
    "Verif.RecorderLoading.C107_scenario_fails",
    "Verif.RecorderLoading.C107_rolling_partial",
    "Verif.RecorderLoading.C107_rolling_fails",
    "Verif.RecorderLoading.C107_aggregated_fails",
    "Verif.RecorderLoading.C107_window_fails",
    "Verif.RecorderLoading.C107_factors_fails",
    "Verif.RecorderLoading.C107_null_fails",
    "Verif.RecorderLoading.C107_names",
    "Verif.RecorderLoading.C107_default_names",
    "Verif.RecorderLoading.C107_unnamed_fails",
    "Verif.Constructors.C107_constructor",
    "Verif.Constructors.C107_document"
   ],
   "note": "Fails: the scenario of a FlowDurationCurveDeviationRecorder is looked up and lost; RollingMeanFlowNodeRecorder loses every entry but four, misspelt ones too; an AggregatedRecorder without agg_func is refused although it is described as optional; a window with a fraction is cut off; the factors of an annual total are not counted; two recorders of one class on the same thing need names."
  },
  {
   "property": "C108",
   "status": "partial",
   "theorems": [
    "Verif.Priority.C108_exchange",
    "Verif.Priority.C108_used",
    "Verif.Priority.C108_unused",
    "Verif.Priority.C108_demand",
    "Verif.Priority.C108_supply",
    "Verif.Priority.C108_demand_edge_partial",
    "Verif.Priority.C108_supply_edge_partial",
    "Verif.Priority.C108_small_fails"
   ],
   "note": "Costs of routes below 1e-8 count as zero (C108_small_fails), so costs have to differ by 2e-8; storages may be off their limits by 2e-8 per day. For the edge solver: models of ComparableDomains whose routes have no cost that is rounded away."
  },
  {
   "property": "C109",
   "status": "partial",
   "theorems": [
    "Verif.Float64.C109_nearest",
    "Verif.Float64.C109_error",
    "Verif.Float64.C109_volume_partial",
    "Verif.Float64.C109_balance",
    "Verif.Float64.C109_fraction",
    "Verif.Float64.C109_adjusted",
    "Verif.Float64.C109_exact",
    "Verif.Float64.C109_volume_fails"
   ],
   "note": "Holds for volumes up to about 1.6e9 units (timesteps between 2^-20 and 2^20 days, tolerance of the solver times the days plus rounding below 9e-7). Fails for larger ones: a reservoir of 134 km3 given in cubic metres is emptied to below zero by a flow its row admits. Fused multiply-add and extended precision are not modelled."
  },
  {
   "property": "C11",
   "status": "proved",
   "theorems": [
    "Verif.Storage.C11_mass_balance",
    "Verif.Storage.C11_mass_balance_any",
    "Verif.Storage.C11_narrow_bounds_fails",
    "Verif.Storage.C11_exact"
   ],
   "note": "Balance up to 1e-6 per step for bounds equal or at least 1e-6 apart, 2e-6 for any bounds."
  },
  {
   "property": "C110",
   "status": "partial",
   "theorems": [
    "Verif.Values.C110_list",
    "Verif.Values.C110_rows",
    "Verif.Values.C110_members",
    "Verif.Values.C110_column",
    "Verif.Values.C110_table",
    "Verif.Values.C110_cell",
    "Verif.Values.C110_sources",
    "Verif.Values.C110_scenario",
    "Verif.Values.C110_constant",
    "Verif.Values.C110_conflict",
    "Verif.Values.C110_single_fails",
    "Verif.Values.C110_options_fails"
   ],
   "note": "The code violates it in two ways: np.squeeze drops the dimension of a scenario (or a time series) of size one, so that data accepted in the document are refused from a table; and with a url all other entries are passed to pandas and cleared, so that options such as interp_day never reach the parameter. Everything else is proved for every document and table. pandas' reading functions and date frequencies are parameters of the model."
  },
  {
   "property": "C111",
   "status": "partial",
   "theorems": [
    "Verif.Float64.C111_total",
    "Verif.Float64.C111_deficit",
    "Verif.Float64.C111_mean",
    "Verif.Float64.C111_total_grows",
    "Verif.Float64.C111_total_exact",
    "Verif.Float64.C111_total_fails",
    "Verif.Float64.C111_virtual_partial",
    "Verif.Float64.C111_virtual_balance",
    "Verif.Float64.C111_curve",
    "Verif.Float64.C111_index",
    "Verif.Float64.C111_index_fails",
    "Verif.Float64.C111_interpolated_partial",
    "Verif.Float64.C111_interpolated_error",
    "Verif.Float64.C111_interpolated_fails",
    "Verif.Float64.C111_same_curves",
    "Verif.Float64.C111_ends",
    "Verif.Float64.C111_piecewise_partial",
    "Verif.Float64.C111_piecewise_error",
    "Verif.Float64.C111_interpolate_error",
    "Verif.Float64.C111_piecewise_fails"
   ],
   "note": "Exactness fails where C111_total_fails, C111_index_fails, C111_interpolated_fails and C111_piecewise_fails say: totals from 2^53 on stagnate, a storage closer to a curve than rounding counts as above it, and interpolation may leave the range of its two values by a few units in the last place. The bounds of virtual storages need numbers of moderate size (the witness C109_volume_fails applies to large ones). Doubles are rationals rounded to nearest even; overflow is not modelled."
  },
  {
   "property": "C112",
   "status": "partial",
   "theorems": [
    "Verif.ResultTables.C112_cells",
    "Verif.ResultTables.C112_rows",
    "Verif.ResultTables.C112_exists_partial",
    "Verif.ResultTables.C112_levels_fails",
    "Verif.ResultTables.C112_result",
    "Verif.ResultTables.C112_align_partial",
    "Verif.ResultTables.C112_align_fails",
    "Verif.ResultTables.C112_profiler",
    "Verif.ResultTables.C112_profiler_sum",
    "Verif.ResultTables.C112_profiler_memory"
   ],
   "note": "Two parts fail: recorders with tables each have none together if their columns have different numbers of levels (an array recorder and an event recorder with two scenarios, C112_levels_fails), and align_series of two series with one name returns tables, and an error without common times (C112_align_fails). pandas.concat is written out in the model; the order of joined rows is not claimed when they differ."
  },
  {
   "property": "C113",
   "status": "partial",
   "theorems": [
    "Verif.Float64.C113_route",
    "Verif.Float64.C113_same",
    "Verif.Float64.C113_more",
    "Verif.Float64.C113_at_least",
    "Verif.Float64.C113_single",
    "Verif.Float64.C113_none",
    "Verif.Float64.C113_whole",
    "Verif.Float64.C113_limit_partial",
    "Verif.Float64.C113_limit_fails",
    "Verif.Float64.C113_balance_partial",
    "Verif.Float64.C113_balance_fails",
    "Verif.Float64.C113_edge",
    "Verif.Float64.C113_edge_link",
    "Verif.Float64.C113_edge_nonneg",
    "Verif.Float64.C113_edge_chain_partial",
    "Verif.Float64.C113_edge_chain_fails",
    "Verif.Float64.C113_edge_end",
    "Verif.Float64.C113_storage",
    "Verif.Float64.C113_volume"
   ],
   "note": "Exact balance of inputs and outputs and exact limits do not hold in double precision (C113_balance_fails, C113_limit_fails), nor does a link between two edges of the edge solver keep the smallest double (C113_edge_chain_fails); the partial theorems bound the differences. The LP solver's columns are any numbers."
  },
  {
   "property": "C114",
   "status": "partial",
   "theorems": [
    "Verif.Float64.C114_storage_partial",
    "Verif.Float64.C114_left",
    "Verif.Float64.C114_storage_fails",
    "Verif.Float64.C114_annual_partial",
    "Verif.Float64.C114_annual_fails",
    "Verif.Float64.C114_year"
   ],
   "note": "The amount can be exceeded by rounding (C114_storage_fails, C114_annual_fails); the partial theorems bound by how much. Timesteps longer than a day are treated within a year (C114_year), not across a reset. AnnualExponentialLicense and AnnualHyperbolaLicense are not treated in double precision."
  },
  {
   "property": "C115",
   "status": "partial",
   "theorems": [
    "Verif.H5Files.C115_handles",
    "Verif.H5Files.C115_user",
    "Verif.H5Files.C115_released_partial",
    "Verif.H5Files.C115_unbuffered",
    "Verif.H5Files.C115_run_partial",
    "Verif.H5Files.C115_reset",
    "Verif.H5Files.C115_clean",
    "Verif.H5Files.C115_untouched",
    "Verif.H5Files.C115_read_only",
    "Verif.H5Files.C115_metadata",
    "Verif.H5Files.C115_setup_again",
    "Verif.H5Files.C115_unfinished",
    "Verif.H5Files.C115_setup_twice_fails",
    "Verif.H5Files.C115_stuck_fails",
    "Verif.H5Files.C115_bare_fails",
    "Verif.H5Files.C115_frames_fails"
   ],
   "note": "The code violates it: setup while the recorder's file is open from an unfinished run raises (C115_setup_again, C115_setup_twice_fails); if something raises in the first reset, finish of a TablesRecorder2 with a buffer raises too, leaves the file open and no later run works (C115_stuck_fails); create_directories refuses a bare file name (C115_bare_fails); an unexhausted generator blocks later runs (C115_frames_fails). PyTables' rules for files that are open already are written down from its documentation."
  },
  {
   "property": "C116",
   "status": "partial",
   "theorems": [
    "Verif.VirtualStorage.C116_annual",
    "Verif.VirtualStorage.C116_seasonal",
    "Verif.VirtualStorage.C116_season_partial",
    "Verif.VirtualStorage.C116_monthly_partial",
    "Verif.VirtualStorage.C116_replenished",
    "Verif.VirtualStorage.C116_fraction",
    "Verif.VirtualStorage.C116_idle",
    "Verif.VirtualStorage.C116_allowed",
    "Verif.VirtualStorage.C116_stale_fails",
    "Verif.VirtualStorage.C116_first_fails"
   ],
   "note": "Proved for maximum and minimum volumes that do not change; for a seasonal licence the use in the season is bounded under the conditions of C17_partial. The code violates it otherwise: a maximum volume that is a parameter is taken from the timestep before the replenishment (C116_stale_fails), and for a monthly licence replenished in the first timestep from memory that was not written (C116_first_fails)."
  },
  {
   "property": "C117",
   "status": "partial",
   "theorems": [
    "Verif.Float64.C117_nearest",
    "Verif.Float64.C117_recorded_partial",
    "Verif.Float64.C117_finite",
    "Verif.Float64.C117_exact",
    "Verif.Float64.C117_default",
    "Verif.Float64.C117_total",
    "Verif.Float64.C117_single_fails",
    "Verif.Float64.C117_large_fails"
   ],
   "note": "The factor is declared as a C float. Proved: exact for factors of at most 24 bits (1.0, the default, among them); otherwise the recorded numbers are right to about seven digits only (C117_recorded_partial), so a factor of 0.1 gives other totals than the other recorders do (C117_single_fails) and large ones are infinite (C117_large_fails)."
  },
  {
   "property": "C118",
   "status": "proved",
   "theorems": [
    "Verif.Lp.C118_feasible",
    "Verif.Lp.C118_objective",
    "Verif.Lp.C118_flows",
    "Verif.Lp.C118_optimal",
    "Verif.Lp.C118_edge_feasible",
    "Verif.Lp.C118_edge_objective",
    "Verif.Lp.C118_edge_flows",
    "Verif.Lp.C118_edge_optimal",
    "Verif.Lp.C118_routes",
    "Verif.Lp.C118_order",
    "Verif.Lp.C118_edge_order"
   ],
   "note": "One timestep and one scenario. Which of several equally cheap solutions GLPK reports may depend on the order of definition and on the other part; that is outside the model."
  },
  {
   "property": "C119",
   "status": "partial",
   "theorems": [
    "Verif.Lp.C119_relaxed_partial",
    "Verif.Lp.C119_edge_relaxed_partial",
    "Verif.Lp.C119_cost_partial",
    "Verif.Lp.C119_edge_cost_partial",
    "Verif.Lp.C119_added",
    "Verif.Lp.C119_edge_added",
    "Verif.Lp.C119_relaxed_fails"
   ],
   "note": "Wider limits: the partial theorems exclude a lower limit lowered to less than 1e-8 below the upper limit, where the solver fixes the flow at the lower limit and a feasible model can become infeasible (C119_relaxed_fails). Further nodes: in full, provided the rows of the larger problem can be built."
  },
  {
   "property": "C12",
   "status": "proved",
   "theorems": [
    "Verif.Storage.C12_range",
    "Verif.Storage.C12_after",
    "Verif.Storage.C12_reset"
   ],
   "note": ""
  },
  {
   "property": "C120",
   "status": "partial",
   "theorems": [
    "Verif.Lp.C120_units_partial",
    "Verif.Lp.C120_edge_units_partial",
    "Verif.Lp.C120_units_optimal_partial",
    "Verif.Lp.C120_edge_units_optimal_partial",
    "Verif.Lp.C120_currency_partial",
    "Verif.Lp.C120_edge_currency",
    "Verif.Lp.C120_units_fails",
    "Verif.Lp.C120_currency_fails"
   ],
   "note": "The partial theorems exclude values that are not zero but below 1e-8 in one of the units (limits, differences of limits, free and stored volumes per day, costs of routes): there the solver's absolute tolerances apply and the property fails (C120_units_fails, C120_currency_fails). Costs in the edge solver: in full."
  },
  {
   "property": "C121",
   "status": "partial",
   "theorems": [
    "Verif.Lp.C121_change",
    "Verif.Lp.C121_dearer_partial",
    "Verif.Lp.C121_edge_change_partial",
    "Verif.Lp.C121_edge_dearer_partial",
    "Verif.Lp.C121_shift",
    "Verif.Lp.C121_edge_shift",
    "Verif.Lp.C121_dearer_fails"
   ],
   "note": "Route solver: in full up to its tolerance of 1e-8 per unit of flow, exactly when no route has a cost that is not zero but below 1e-8; otherwise exactness fails (C121_dearer_fails). Edge solver: exact, for solutions without flow on the columns of edges between domains (Idle, see C23_edge_fails); the last statement for all solutions."
  },
  {
   "property": "C122",
   "status": "partial",
   "theorems": [
    "Verif.Lp.C122_route_partial",
    "Verif.Lp.C122_routes",
    "Verif.Lp.C122_edge_partial",
    "Verif.Lp.C122_unused_fails",
    "Verif.Lp.C122_edge_fails"
   ],
   "note": "Route solver: in full when some route takes the connection; otherwise (a connection back, inside a cycle) the model with the link is refused, whatever its data (C122_unused_fails). Edge solver: in full when no aggregated node, storage or cross-domain output counts both ends; an aggregated node over an input and an output counts the flow of their direct connection once and with a link in between twice (C122_edge_fails). Order of the routes: C118_order."
  },
  {
   "property": "C123",
   "status": "partial",
   "theorems": [
    "Verif.Lp.C123_grouped_partial",
    "Verif.Lp.C123_edge_grouped",
    "Verif.Lp.C123_licensed_partial",
    "Verif.Lp.C123_edge_licensed",
    "Verif.Lp.C123_closed_partial",
    "Verif.Lp.C123_closed_optimum_partial",
    "Verif.Lp.C123_edge_closed",
    "Verif.Lp.C123_edge_closed_optimum",
    "Verif.Lp.C123_grouped_fails",
    "Verif.Lp.C123_closed_fails"
   ],
   "note": "Edge solver: in full (closed nodes: for solutions that leave edges between domains at zero, which basic solutions do, C22_idle). Route solver: in full except for inputs or outputs in the middle of a route (allowed when connecting nodes), whose own limits do not count what passes through them, while aggregated nodes and licences do count it (C123_grouped_fails), and which let water pass when closed (C123_closed_fails)."
  },
  {
   "property": "C124",
   "status": "proved",
   "theorems": [
    "Verif.Lp.C124_joined",
    "Verif.Lp.C124_split",
    "Verif.Lp.C124_optimum",
    "Verif.Lp.C124_edge_joined",
    "Verif.Lp.C124_edge_split",
    "Verif.Lp.C124_edge_optimum",
    "Verif.Lp.C124_small_fails"
   ],
   "note": "The supplies are in no storage, licence, aggregated node or connection between domains. The routes are those of the first supply, the same ones from the second, and others that touch neither; accordingly for edges. C124_small_fails: two limits of 6e-9 against one of 1.2e-8."
  },
  {
   "property": "C125",
   "status": "proved",
   "theorems": [
    "Verif.Lp.C125_between",
    "Verif.Lp.C125_edge_between",
    "Verif.Lp.C125_optima",
    "Verif.Lp.C125_unreached",
    "Verif.Lp.C125_edge_unreached",
    "Verif.Lp.C125_returns",
    "Verif.Lp.C125_edge_returns"
   ],
   "note": "Not reached means more than 2e-8 away (volumes: 2e-8 times the days of the step), because the solver rounds limits to 1e-8. Limits of aggregated nodes and of virtual storages are not among those that are moved. For the edge solver no value is given to the columns of edges between domains (Idle; C22_idle). Limits in C125_returns are at least 1e-8 and at least 2e-8 above the minimum flow."
  },
  {
   "property": "C126",
   "status": "proved",
   "theorems": [
    "Verif.Simulation.C126_annual",
    "Verif.Simulation.C126_scenarios",
    "Verif.Simulation.C126_storage",
    "Verif.Simulation.C126_period",
    "Verif.Simulation.C126_rolling",
    "Verif.Simulation.C126_balance",
    "Verif.Simulation.C126_reservoir"
   ],
   "note": "The licences are those of C36, C78 and C14 in the runs of C88: here nothing is assumed about the flows, they are what the solver returns for the values of the licence. Minimum flow zero for nodes with a licence; daily timesteps for AnnualLicense and StorageLicense (for longer ones see C36_turn_fails and C78_week_fails); constant limits of volumes; factors of a rolling licence not negative. A rolling storage enters the run as a virtual storage whose volume before each solve is that of the RollingVirtualStorage after the timesteps so far. Exact arithmetic (doubles: C114)."
  },
  {
   "property": "C127",
   "status": "proved",
   "theorems": [
    "Verif.Lp.C127_route",
    "Verif.Lp.C127_edge",
    "Verif.Lp.C127_route_bounded",
    "Verif.Lp.C127_edge_bounded",
    "Verif.Lp.C127_route_zero",
    "Verif.Lp.C127_edge_zero",
    "Verif.Lp.C127_unlimited",
    "Verif.Lp.C127_demanding",
    "Verif.Simulation.C127_route_step",
    "Verif.Simulation.C127_route_best",
    "Verif.Simulation.C127_edge_step",
    "Verif.Simulation.C127_edge_best",
    "Verif.Simulation.C127_runs",
    "Verif.Simulation.C127_best_runs",
    "Verif.Simulation.C127_edge_runs",
    "Verif.Simulation.C127_edge_best_runs",
    "Verif.Simulation.C127_scenarios"
   ],
   "note": "Proved by elimination of the columns one after the other (Proof/Attained.lean). The runs are in namespace Verif.Simulation. Exact arithmetic: GLPK works with tolerances and may fail on problems that have solutions. That the rows can be built (no node without routes, no zero factors) is a hypothesis."
  },
  {
   "property": "C128",
   "status": "proved",
   "theorems": [
    "Verif.Lp.C128_route",
    "Verif.Lp.C128_edge",
    "Verif.Lp.C128_best",
    "Verif.Lp.C128_blocked",
    "Verif.Simulation.C128_step",
    "Verif.Simulation.C128_runs",
    "Verif.Simulation.C128_best_runs",
    "Verif.Simulation.C128_edge_runs",
    "Verif.Simulation.C128_scenarios"
   ],
   "note": "The runs are in namespace Verif.Simulation. Exact arithmetic: GLPK works with tolerances. That the rows can be built (no node without routes, no zero factors) is a hypothesis. Negative flows of catchments: C83_negative."
  },
  {
   "property": "C129",
   "status": "proved",
   "theorems": [
    "Verif.Recorders.C129_total_array",
    "Verif.Recorders.C129_parameter",
    "Verif.Recorders.C129_mean",
    "Verif.Recorders.C129_demand",
    "Verif.Recorders.C129_deficits",
    "Verif.Recorders.C129_annual",
    "Verif.Recorders.C129_minimum",
    "Verif.Recorders.C129_counts",
    "Verif.Recorders.C129_years",
    "Verif.Simulation.C129_balance"
   ],
   "note": "C129_balance is in namespace Verif.Simulation. Exact arithmetic; the factor of array recorders is a C float (C117). Values of all timesteps of the run are recorded (the array has as many rows as the run has timesteps)."
  },
  {
   "property": "C13",
   "status": "proved",
   "theorems": [
    "Verif.Storage.C13_volume_constant",
    "Verif.Storage.C13_fraction_constant",
    "Verif.Storage.C13_zero_maximum",
    "Verif.Storage.C13_varying"
   ],
   "note": ""
  },
  {
   "property": "C130",
   "status": "proved",
   "theorems": [
    "Verif.Simulation.C130_after",
    "Verif.Simulation.C130_cut",
    "Verif.Simulation.C130_begins",
    "Verif.Simulation.C130_volumes",
    "Verif.Simulation.C130_continued",
    "Verif.Simulation.C130_warm",
    "Verif.Simulation.C130_memory_fails",
    "Verif.Simulation.C130_scenarios",
    "Verif.Recorders.C130_totals",
    "Verif.Recorders.C130_arrays",
    "Verif.Recorders.C130_counts",
    "Verif.Recorders.C130_minimum",
    "Verif.Recorders.C130_years_fails"
   ],
   "note": "The theorems on recorders are in namespace Verif.Recorders. C130_memory_fails and C130_years_fails show that the provisos are needed. Rolling virtual storages and aquifers, which hold more than a volume, are not among the storages of Model/Simulation."
  },
  {
   "property": "C131",
   "status": "partial",
   "theorems": [
    "Verif.Timestepper.C131_covers",
    "Verif.Timestepper.C131_new",
    "Verif.Timestepper.C131_length_partial",
    "Verif.Timestepper.C131_number",
    "Verif.Timestepper.C131_longer",
    "Verif.Timestepper.C131_later",
    "Verif.Timestepper.C131_refused",
    "Verif.Timestepper.C131_calendar",
    "Verif.Timestepper.C131_timedelta_fails"
   ],
   "note": "A timedelta is cut to whole days without a word: 36 hours are 24 hours, and half a day is refused although the text '12H' is not (C131_timedelta_fails). period_range is modelled by the ordinals of pandas; C131_calendar shows that months and years of the Gregorian calendar satisfy what is asked of a base. Business days are not modelled."
  },
  {
   "property": "C132",
   "status": "proved",
   "theorems": [
    "Verif.Simulation.C132_apart",
    "Verif.Simulation.C132_together",
    "Verif.Simulation.C132_numbers",
    "Verif.Simulation.C132_stops"
   ],
   "note": "Lifts C118 (one solve) to whole runs by induction. Storages and virtual storages are numbered anew in each part; C132_numbers ties the numbers to those of the whole model. Exact arithmetic; GLPK may return any solution (or any of least cost) of the problem it is given."
  },
  {
   "property": "C133",
   "status": "partial",
   "theorems": [
    "Verif.Simulation.C133_units_partial",
    "Verif.Simulation.C133_edge_currency",
    "Verif.Simulation.C133_currency_partial",
    "Verif.Simulation.C133_units_fails"
   ],
   "note": "Lifts C120 (one solve) to whole runs by induction. Not true of the code for numbers below its absolute tolerances: volumes within 1e-6 of a limit are set to the limit whatever the unit (C133_units_fails), limits, volumes and route costs below 1e-8 are ignored (C120). Proved for all other runs; with the edge solver the currency never matters. Exact arithmetic."
  },
  {
   "property": "C134",
   "status": "partial",
   "theorems": [
    "Verif.Simulation.C134_link_partial",
    "Verif.Simulation.C134_edge_link_partial",
    "Verif.Simulation.C134_grouped_partial",
    "Verif.Simulation.C134_edge_grouped",
    "Verif.Simulation.C134_closed_partial",
    "Verif.Simulation.C134_edge_closed",
    "Verif.Simulation.C134_joined",
    "Verif.Simulation.C134_edge_joined"
   ],
   "note": "Lifts C122, C123 and C124 (one solve) to whole runs by induction. Not true of the code in the cases shown for one solve: a link in a connection no route takes makes the problem unbuildable (C122_unused_fails), components that count both ends of the connection (C122_edge_fails), inputs or outputs in the middle of a route (C123_grouped_fails, C123_closed_fails). Exact arithmetic."
  },
  {
   "property": "C135",
   "status": "proved",
   "theorems": [
    "Verif.Simulation.C135_unreached",
    "Verif.Simulation.C135_edge_unreached"
   ],
   "note": "Lifts C125 (one solve) to whole runs by induction. The values are those of the parameters (`Says`): a parameter that looks at the fraction of the maximum volume sees the change and may then say something else, which is a change of another kind. Volumes within 1e-6 of a limit are set to it (C04), hence the distance of 2e-6. Exact arithmetic."
  },
  {
   "property": "C136",
   "status": "proved",
   "theorems": [
    "Verif.Simulation.C136_order",
    "Verif.Simulation.C136_edge_order"
   ],
   "note": "Lifts C118_order (one solve) to whole runs by induction; storages and licences are moved by any permutations of positions. Which of several optimal solutions GLPK returns may depend on the order: the theorem says that the other order has the same solutions. Exact arithmetic."
  },
  {
   "property": "C137",
   "status": "partial",
   "theorems": [
    "Verif.Keywords.C137_kept",
    "Verif.Keywords.C137_added",
    "Verif.Keywords.C137_unknown",
    "Verif.Keywords.C137_twice_missing",
    "Verif.Keywords.C137_dataframe_partial",
    "Verif.Keywords.C137_dataframe_fails"
   ],
   "note": "Proved for 74 classes. DataFrameParameter violates it: it passes *kwargs for **kwargs, so the keywords themselves become name, comment and tags, and a second named one is refused (C137_dataframe_fails); it is fine without further keywords. Python's binding of arguments is modelled; what constructors do with their own arguments is not."
  },
  {
   "property": "C138",
   "status": "partial",
   "theorems": [
    "Verif.RecorderKeywords.C138_kept",
    "Verif.RecorderKeywords.C138_kept_of",
    "Verif.RecorderKeywords.C138_named",
    "Verif.RecorderKeywords.C138_named_place",
    "Verif.RecorderKeywords.C138_unnamed",
    "Verif.RecorderKeywords.C138_unnamed_of",
    "Verif.RecorderKeywords.C138_unknown",
    "Verif.RecorderKeywords.C138_proportional",
    "Verif.RecorderKeywords.C138_two_fails"
   ],
   "note": "Violated in one point: the recorders of two parameters without names get the same name (... .None), so the second is refused (C138_two_fails). A name given by position is covered for the 49 classes of recorders of a node, storage or parameter; not covered are the conversions by the setters of Recorder."
  },
  {
   "property": "C139",
   "status": "partial",
   "theorems": [
    "Verif.NodeKeywords.C139_kept",
    "Verif.NodeKeywords.C139_kept_shadow",
    "Verif.NodeKeywords.C139_named",
    "Verif.NodeKeywords.C139_colour_partial",
    "Verif.NodeKeywords.C139_colour_fails",
    "Verif.NodeKeywords.C139_unknown",
    "Verif.NodeKeywords.C139_settled",
    "Verif.NodeKeywords.C139_position_fails"
   ],
   "note": "Violated for colours: an Input (and Catchment, Discharge) is red whatever colour is given, and the blue and green that the constructors of river nodes assign are overwritten by those of their base classes (C139_colour_fails). The name of piecewise links, splits and gauges and the nodes of annual and seasonal licences have to be keywords, and Storage ignores further arguments by position (C139_position_fails)."
  },
  {
   "property": "C14",
   "status": "partial",
   "theorems": [
    "Verif.VirtualStorage.C14_partial",
    "Verif.VirtualStorage.C14_exact",
    "Verif.VirtualStorage.C14_enforced",
    "Verif.VirtualStorage.C14_short_window",
    "Verif.VirtualStorage.C14_fails"
   ],
   "note": "The exact claim fails because volumes within 1e-6 of a bound are snapped; proved up to 1e-6 per timestep, and exactly when nothing is snapped."
  },
  {
   "property": "C15",
   "status": "proved",
   "theorems": [
    "Verif.VirtualStorage.C15_once_per_year",
    "Verif.VirtualStorage.C15_target",
    "Verif.VirtualStorage.C15_coarse_never_resets"
   ],
   "note": ""
  },
  {
   "property": "C16",
   "status": "proved",
   "theorems": [
    "Verif.VirtualStorage.C16_every_n_months",
    "Verif.VirtualStorage.C16_large_offset_never_resets"
   ],
   "note": ""
  },
  {
   "property": "C17",
   "status": "partial",
   "theorems": [
    "Verif.VirtualStorage.C17_partial",
    "Verif.VirtualStorage.C17_inactive",
    "Verif.VirtualStorage.C17_reset",
    "Verif.VirtualStorage.C17_first_timestep_fails",
    "Verif.VirtualStorage.C17_first_season_fails",
    "Verif.VirtualStorage.C17_rerun_fails",
    "Verif.VirtualStorage.C17_coarse_fails"
   ],
   "note": "False for runs starting out of season after the end date, for re-runs of the same object, and for timesteps that jump over the off-season; proved otherwise."
  },
  {
   "property": "C18",
   "status": "partial",
   "theorems": [
    "Verif.NodeRun.C18_partial",
    "Verif.NodeRun.C18_fails",
    "Verif.AggregatedStart.C18_aggregated_partial",
    "Verif.AggregatedStart.C18_aggregated_constant_fails",
    "Verif.AggregatedStart.C18_aggregated_varying_fails"
   ],
   "note": "Node flows, volumes and recorders of top-level nodes; violated for child nodes hidden from Model.reset (C18_fails), and for the fraction with which an aggregated storage starts when the maximum volume of a storage is a parameter (C18_aggregated_constant_fails, C18_aggregated_varying_fails)."
  },
  {
   "property": "C19",
   "status": "partial",
   "theorems": [
    "Verif.NodeRun.C19_partial",
    "Verif.NodeRun.C19_first",
    "Verif.NodeRun.C19_composite_zero",
    "Verif.NodeRun.C19_composite_fails",
    "Verif.NodeRun.C19_inactive_fails"
   ],
   "note": "Holds for nodes that commit before after(); BreakLink, DelayNode, LossLink, AggregatedNode, AggregatedStorage always report 0, inactive virtual storages are stale."
  },
  {
   "property": "C20",
   "status": "partial",
   "theorems": [
    "Verif.Lp.C20_route_partial",
    "Verif.Lp.C20_edge_partial",
    "Verif.Lp.C20_edge_domains_partial",
    "Verif.Lp.C20_fails"
   ],
   "note": "route and edge solver, every feasible solution; the limits bound the reported flow when no column is shared by two members. Violated otherwise (C20_fails: members in series)"
  },
  {
   "property": "C21",
   "status": "partial",
   "theorems": [
    "Verif.Lp.C21_route_partial",
    "Verif.Lp.C21_edge_partial",
    "Verif.Lp.C21_edge",
    "Verif.Lp.C21_fails",
    "Verif.Lp.C21_series_error",
    "Verif.Lp.C21_few_fails"
   ],
   "note": "proportionality for both solvers; route solver: violated for inputs in the middle of a route; edge solver: any number of domains (basic solutions, C22_idle)"
  },
  {
   "property": "C22",
   "status": "partial",
   "theorems": [
    "Verif.Lp.C22_route",
    "Verif.Lp.C22_edge_partial",
    "Verif.Lp.C22_edge",
    "Verif.Lp.C22_idle",
    "Verif.Lp.C22_between",
    "Verif.Lp.C22_edge_fails",
    "Verif.Lp.wellRouted_of_findAllRoutes"
   ],
   "note": "route solver: full; edge solver: one-domain models, and any number of domains for basic solutions (vertices, as the simplex method returns; C22_idle, C22_edge); C22_edge_fails shows a feasible solution that is no vertex and violates the limits"
  },
  {
   "property": "C23",
   "status": "partial",
   "theorems": [
    "Verif.Lp.C23_route",
    "Verif.Lp.C23_edge_partial",
    "Verif.Lp.C23_edge",
    "Verif.Lp.C23_edge_fails"
   ],
   "note": "route solver: full; edge solver: one-domain models, and basic solutions for any number of domains; violated by other feasible solutions with two domains"
  },
  {
   "property": "C24",
   "status": "partial",
   "theorems": [
    "Verif.Lp.C24_route_to_edge_partial",
    "Verif.Lp.C24_edge_to_route_partial",
    "Verif.Lp.C24_same_optimum_partial",
    "Verif.Lp.C24_domains_route_to_edge_partial",
    "Verif.Lp.C24_domains_edge_to_route_partial",
    "Verif.Lp.C24_domains_same_optimum_partial",
    "Verif.Lp.C24_domains_objective",
    "Verif.Lp.C24_fails"
   ],
   "note": "acyclic models (one domain, and any number of domains) both solvers can set up, with no route through two members of an aggregated node; violated for members in series (C24_fails)"
  },
  {
   "property": "C25",
   "status": "proved",
   "theorems": [
    "Verif.Bounds.C25_meaning",
    "Verif.Bounds.C25_nan_error",
    "Verif.Bounds.C25_nan_fails_unsafe",
    "Verif.Bounds.C25_contradictory"
   ],
   "note": "C25_nan_fails_unsafe: with the opt-in use_unsafe_api NaN is stored without error."
  },
  {
   "property": "C26",
   "status": "proved",
   "theorems": [
    "Verif.Routes.C26_routes_exact",
    "Verif.Routes.C26_routes_total",
    "Verif.Routes.C26_routes_sorted"
   ],
   "note": ""
  },
  {
   "property": "C27",
   "status": "partial",
   "theorems": [
    "Verif.Composite.C27_fill",
    "Verif.Composite.C27_total",
    "Verif.Composite.C27_routes",
    "Verif.Composite.C27_max_flows",
    "Verif.Composite.C27_edge_fill",
    "Verif.Composite.C27_edge_total",
    "Verif.Composite.C27_linked_fails",
    "Verif.NodeRun.C61_composite_partial"
   ],
   "note": "Proved for both solvers, for segments that no virtual storage or aggregated node refers to (the segments of a MultiSplitLink with factors are outside: C27_linked_fails shows an optimal solution that uses the dearer segment before the cheaper one is full). The reported flow is C61_composite_partial (class piecewise)."
  },
  {
   "property": "C28",
   "status": "partial",
   "theorems": [
    "Verif.Composite.C28_route",
    "Verif.Composite.C28_edge_partial",
    "Verif.Lp.C28_edge",
    "Verif.Composite.C28_zero_parameter_fails",
    "Verif.Composite.C28_resetup_fails",
    "Verif.NodeRun.C61_composite_partial"
   ],
   "note": "Route solver: all models; edge solver: one domain, or basic solutions. A loss-factor parameter with value 0 stops the solver (C28_zero_parameter_fails); after a gross loss of 100 % a second setup leaves the node blocked (C28_resetup_fails)."
  },
  {
   "property": "C29",
   "status": "proved",
   "theorems": [
    "Verif.Memory.C29_delay",
    "Verif.Memory.C29_conserved"
   ],
   "note": ""
  },
  {
   "property": "C30",
   "status": "proved",
   "theorems": [
    "Verif.ControlCurve.C30_first",
    "Verif.ControlCurve.C30_monotone",
    "Verif.ControlCurve.C30_count",
    "Verif.ControlCurve.C30_value",
    "Verif.ControlCurve.C30_variables"
   ],
   "note": ""
  },
  {
   "property": "C31",
   "status": "proved",
   "theorems": [
    "Verif.ControlCurve.C31_between",
    "Verif.ControlCurve.C31_range",
    "Verif.ControlCurve.C31_linear",
    "Verif.ControlCurve.C31_at_levels",
    "Verif.ControlCurve.C31_full_curve",
    "Verif.ControlCurve.C31_piecewise_between",
    "Verif.ControlCurve.C31_piecewise_linear"
   ],
   "note": "For strictly decreasing curves; C31_full_curve states what happens when the first curve is at 100 %."
  },
  {
   "property": "C32",
   "status": "partial",
   "theorems": [
    "Verif.Memory.C32_predicate",
    "Verif.Memory.C32_ratchet_partial",
    "Verif.Memory.C32_first",
    "Verif.Memory.C32_ratchet_fails",
    "Verif.Memory.C32_multiple",
    "Verif.Memory.C32_value",
    "Verif.Memory.C32_first_recorder",
    "Verif.Memory.C32_first_fails"
   ],
   "note": "Violated for recorder thresholds whose initial value is 1 (not remembered by the ratchet), and by node thresholds, whose index in the first timestep is 0 although documented to be true (C32_first_fails)."
  },
  {
   "property": "C33",
   "status": "partial",
   "theorems": [
    "Verif.Aggregate.C33_sum_product_mean",
    "Verif.Aggregate.C33_max_min",
    "Verif.Aggregate.C33_median",
    "Verif.Aggregate.C33_median_even",
    "Verif.Aggregate.C33_order",
    "Verif.Aggregate.C33_index",
    "Verif.Aggregate.C33_dependencies_partial",
    "Verif.Aggregate.C33_dependencies_fails"
   ],
   "note": "Values proved for all functions; the dependency bookkeeping is wrong when a parameter is given twice and removed once."
  },
  {
   "property": "C34",
   "status": "proved",
   "theorems": [
    "Verif.Memory.C34_value",
    "Verif.Memory.C34_setup",
    "Verif.Memory.C34_flow_parameter",
    "Verif.Memory.C34_deficit_parameter"
   ],
   "note": ""
  },
  {
   "property": "C35",
   "status": "partial",
   "theorems": [
    "Verif.Memory.C35_value",
    "Verif.Memory.C35_setup",
    "Verif.Memory.C35_late_start_fails"
   ],
   "note": "Proved for runs stepping from the first timestep; violated when Model.reset(start=...) begins later."
  },
  {
   "property": "C36",
   "status": "proved",
   "theorems": [
    "Verif.License.C36_any_length_partial",
    "Verif.License.C36_year",
    "Verif.License.C36_daily",
    "Verif.License.C36_turn_fails"
   ],
   "note": "Daily timesteps; C36_turn_fails shows the restriction is necessary."
  },
  {
   "property": "C37",
   "status": "partial",
   "theorems": [
    "Verif.Profiles.C37_days",
    "Verif.Profiles.C37_period",
    "Verif.Profiles.C37_partial",
    "Verif.Profiles.C37_reset_day",
    "Verif.Profiles.C37_range",
    "Verif.Profiles.C37_fails"
   ],
   "note": "Range, period and reset day proved for every date; the fall is uneven for resets in January and February of non-leap years (one day too many after February, C37_fails); C37_days says exactly when."
  },
  {
   "property": "C38",
   "status": "proved",
   "theorems": [
    "Verif.Profiles.C38_in_range",
    "Verif.Profiles.C38_lengths",
    "Verif.Profiles.C38_every_year",
    "Verif.Profiles.C38_interp_first",
    "Verif.Profiles.C38_interp_last",
    "Verif.Profiles.C38_interp_between",
    "Verif.Profiles.C38_daily_values",
    "Verif.Profiles.C38_scenario"
   ],
   "note": ""
  },
  {
   "property": "C39",
   "status": "partial",
   "theorems": [
    "Verif.Functions.C39_accepted",
    "Verif.Functions.C39_integral",
    "Verif.Functions.C39_continuous_monotone",
    "Verif.Functions.C39_negative_start_fails"
   ],
   "note": "Proved when the first breakpoint is not negative; a negative first breakpoint is accepted and gives zero everywhere (C39_negative_start_fails)."
  },
  {
   "property": "C40",
   "status": "partial",
   "theorems": [
    "Verif.Recorders.C40_run",
    "Verif.Recorders.C40_coupled",
    "Verif.Recorders.C40_total_flow",
    "Verif.Recorders.C40_total_deficit",
    "Verif.Recorders.C40_total_parameter",
    "Verif.Recorders.C40_mean_flow_partial",
    "Verif.Recorders.C40_mean_parameter_partial",
    "Verif.Recorders.C40_array",
    "Verif.Recorders.C40_array_flow",
    "Verif.Recorders.C40_mean_fails",
    "Verif.Recorders.C40_mean_coupled_fails",
    "Verif.Recorders.C40_mean_single_fails"
   ],
   "note": "Totals and arrays proved for every run; means proved where the timestep shown at the end is the number of timesteps (every run of a single model, first model of a coupled run). The later models of a coupled run divide by one timestep too few (C40_mean_coupled_fails, C40_mean_fails) and a coupled run over one date stops with an error (C40_mean_single_fails)."
  },
  {
   "property": "C41",
   "status": "partial",
   "theorems": [
    "Verif.Recorders.C41_deficit_frequency_partial",
    "Verif.Recorders.C41_timestep_count",
    "Verif.Recorders.C41_annual_partial",
    "Verif.Recorders.C41_annual_fails",
    "Verif.Recorders.C41_exceedances_partial",
    "Verif.Recorders.C41_feb29_fails"
   ],
   "note": "Deficit frequency: as the means of C40. Years are counted correctly for non-negative indices or positive thresholds; with negative indices a year below the threshold is counted (C41_annual_fails). Included dates from 29 February stop the run in common years (C41_feb29_fails)."
  },
  {
   "property": "C42",
   "status": "partial",
   "theorems": [
    "Verif.Events.C42_partial",
    "Verif.Events.C42_default",
    "Verif.Events.C42_trigger",
    "Verif.Events.C42_unfinished_fails",
    "Verif.Events.C42_fraction_fails"
   ],
   "note": "Events in progress at the end are recorded whatever their length (C42_unfinished_fails); parameter and recorder values strictly between -1 and 1 do not trigger (C42_fraction_fails)."
  },
  {
   "property": "C43",
   "status": "partial",
   "theorems": [
    "Verif.Constraints.C43_consistent_partial",
    "Verif.Constraints.C43_set_partial",
    "Verif.Constraints.C43_create",
    "Verif.Constraints.C43_neg_inf_fails",
    "Verif.Constraints.C43_violated",
    "Verif.Constraints.C43_feasible"
   ],
   "note": "Violation and feasibility proved for all bounds and values; an upper bound of -inf is accepted but reads back as absent (C43_neg_inf_fails)."
  },
  {
   "property": "C44",
   "status": "partial",
   "theorems": [
    "Verif.Bisect.C44_result",
    "Verif.Bisect.C44_limit",
    "Verif.Bisect.C44_infeasible",
    "Verif.Bisect.C44_lower_bound_fails",
    "Verif.Bisect.C44_infinite_fails"
   ],
   "note": "The lower bound is never evaluated on its own (C44_lower_bound_fails); infinite bounds make the search endless (C44_infinite_fails)."
  },
  {
   "property": "C45",
   "status": "partial",
   "theorems": [
    "Verif.Hashes.C45_chunks",
    "Verif.Hashes.C45_history",
    "Verif.Hashes.C45_unchanged_partial",
    "Verif.Hashes.C45_uncached",
    "Verif.Hashes.C45_changed_fails"
   ],
   "note": "C45_history characterises every sequence of checks; a file that changes after it was checked is not read again (C45_changed_fails)."
  },
  {
   "property": "C46",
   "status": "partial",
   "theorems": [
    "Verif.Includes.C46_merged",
    "Verif.Includes.C46_accepted",
    "Verif.Includes.C46_refused",
    "Verif.Includes.C46_ends_partial",
    "Verif.Includes.C46_file_partial",
    "Verif.Includes.C46_file_fails",
    "Verif.Includes.C46_cycle_fails"
   ],
   "note": "C46_merged holds for every successful load from a dictionary, with nested includes; a document read from a file has its includes processed twice, which doubles list sections (C46_file_fails); files that include each other are read for ever (C46_cycle_fails)."
  },
  {
   "property": "C47",
   "status": "partial",
   "theorems": [
    "Verif.References.C47_ends",
    "Verif.References.C47_shared",
    "Verif.References.C47_accepted",
    "Verif.References.C47_order",
    "Verif.References.C47_untyped_fails"
   ],
   "note": "Holds for definitions with a type; a named parameter without one is taken as a number when referred to once and refused otherwise (C47_untyped_fails). Acceptance is characterised for documents in which only top-level definitions have names."
  },
  {
   "property": "C48",
   "status": "partial",
   "theorems": [
    "Verif.Network.C48_unique",
    "Verif.Network.C48_create",
    "Verif.Network.C48_ends",
    "Verif.Network.C48_rename",
    "Verif.Network.C48_lookup_partial",
    "Verif.Network.C48_delete",
    "Verif.Network.C48_delete_name",
    "Verif.Network.C48_whole",
    "Verif.Network.C48_failed_creation_partial",
    "Verif.Network.C48_lookup_fails",
    "Verif.Network.C48_children_fails",
    "Verif.Network.C48_reconnect_fails",
    "Verif.Network.C48_break_link_fails",
    "Verif.Network.C48_aggregated_fails",
    "Verif.Network.C48_failed_creation_fails"
   ],
   "note": "Holds for nodes without a parent over all histories in which only nodes of the model are connected; names of sub-nodes are not protected, some parts of compound nodes are not registered as sub-nodes, and deleted nodes come back when connected."
  },
  {
   "property": "C49",
   "status": "partial",
   "theorems": [
    "Verif.Run.C49_run",
    "Verif.Run.C49_exception",
    "Verif.Run.C49_same_dates",
    "Verif.Run.C49_current",
    "Verif.Run.C49_scenarios",
    "Verif.Run.C49_scenarios_again_fails",
    "Verif.Run.C49_truncation_fails",
    "Verif.Run.C49_finish_raises_fails"
   ],
   "note": "Proved for all models and hooks; sub-models of different lengths are silently truncated (C49_truncation_fails) a raising finish-hook leaves later models unfinished (C49_finish_raises_fails), and inconsistent scenarios are reported only by the first run (C49_scenarios_again_fails)."
  },
  {
   "property": "C50",
   "status": "partial",
   "theorems": [
    "Verif.Run.C50_run",
    "Verif.Run.C50_exception",
    "Verif.Run.C50_finished_once",
    "Verif.Run.C50_run_again",
    "Verif.Run.C50_step_setup",
    "Verif.Run.C50_step",
    "Verif.Run.C50_no_timesteps",
    "Verif.Run.C50_reset",
    "Verif.Run.C50_new_component_fails",
    "Verif.Run.C50_finish_raises_fails",
    "Verif.Run.C50_setup_raises_fails",
    "Verif.Run.C50_second_try_fails",
    "Verif.Run.C50_cycle_ignored_fails",
    "Verif.Run.C50_masked_fails"
   ],
   "note": "Proved for all models and hooks whose cached component order is current; a component created after setup is ignored (C50_new_component_fails) and a raising finish-hook leaves later components unfinished. After a setup that raised, a model whose timestepper had been changed counts as set up, so that running it again skips the setup (C50_setup_raises_fails, C50_second_try_fails); if it raised because of a cycle of dependencies, it then runs without its components (C50_cycle_ignored_fails). An exception in the setup is replaced by that of a finish-hook that needs what the setup or reset was to make (C50_masked_fails)."
  },
  {
   "property": "C51",
   "status": "partial",
   "theorems": [
    "Verif.DataFrame.C51_partial",
    "Verif.DataFrame.C51_no_scenario",
    "Verif.DataFrame.C51_tables_no_scenario",
    "Verif.DataFrame.C51_wrong_size",
    "Verif.DataFrame.C51_array",
    "Verif.DataFrame.C51_tables_partial",
    "Verif.DataFrame.C51_open_slice_fails",
    "Verif.DataFrame.C51_negative_end_fails",
    "Verif.DataFrame.C51_long_slice_fails",
    "Verif.DataFrame.C51_reversed_slice_fails",
    "Verif.DataFrame.C51_one_column_fails",
    "Verif.DataFrame.C51_one_column_selected_fails",
    "Verif.DataFrame.C51_tables_offset_fails"
   ],
   "note": "Proved for tables of combinations, unrestricted scenarios and slices with an explicit end inside the ensemble and a positive step. The code computes the columns with slice.indices(slice.stop) instead of the ensemble size: open, negative, too long and reversed slices are shown to fail. A one column frame with a larger scenario passes the checks and fails in the run. For tables longer than the run the offset reads other rows when members are selected. Resampling of data frames is C77."
  },
  {
   "property": "C52",
   "status": "partial",
   "theorems": [
    "Verif.Hydropower.C52_power",
    "Verif.Hydropower.C52_inverse",
    "Verif.Hydropower.C52_round_trip_partial",
    "Verif.Hydropower.C52_low_head",
    "Verif.Hydropower.C52_limits",
    "Verif.Hydropower.C52_capped",
    "Verif.Hydropower.C52_power_series",
    "Verif.Hydropower.C52_negative_target",
    "Verif.Hydropower.C52_energy",
    "Verif.Hydropower.C52_run_meets_target",
    "Verif.Hydropower.C52_zero_target_fails"
   ],
   "note": "Proved for every plant with positive coefficients and positive head at or above the minimum head. At zero head the parameter asks for an infinite (or the maximum) flow even for a zero target (C52_zero_target_fails)."
  },
  {
   "property": "C53",
   "status": "partial",
   "theorems": [
    "Verif.Lp.C53_route",
    "Verif.Lp.C53_storage",
    "Verif.Lp.C53_cross",
    "Verif.Lp.C53_edge_partial",
    "Verif.Lp.C53_edge_storage",
    "Verif.Lp.C53_edge",
    "Verif.Lp.C53_edge_volume",
    "Verif.Lp.C53_edge_cross",
    "Verif.Lp.C53_conversion",
    "Verif.Lp.C22_edge_fails"
   ],
   "note": "route solver: full incl. cross-domain and storage bounds; edge solver: one-domain models, and basic solutions for any number of domains"
  },
  {
   "property": "C54",
   "status": "partial",
   "theorems": [
    "Verif.Lp.C54_route_partial",
    "Verif.Lp.C54_volume",
    "Verif.Lp.C54_edge_partial",
    "Verif.Lp.C54_edge",
    "Verif.Lp.C54_fails",
    "Verif.Lp.C54_empty_fails"
   ],
   "note": "row = depletion for both solvers; route solver violated when a node is listed twice"
  },
  {
   "property": "C55",
   "status": "partial",
   "theorems": [
    "Verif.Network.C55_connect",
    "Verif.Network.C55_disconnect",
    "Verif.Network.C55_disconnect_all",
    "Verif.Network.C55_not_connected",
    "Verif.Network.C55_round_trip_partial",
    "Verif.Network.C55_from_storage_fails",
    "Verif.Network.C55_compound_fails"
   ],
   "note": "connect is exact for all nodes; disconnect has no effect other than the one named, but cannot undo connections from storages or to compound nodes."
  },
  {
   "property": "C56",
   "status": "partial",
   "theorems": [
    "Verif.SolverOptions.C56_options",
    "Verif.SolverOptions.C56_choice",
    "Verif.SolverOptions.C56_document_partial",
    "Verif.SolverOptions.C56_arguments_fails",
    "Verif.SolverLimits.C56_limits_created",
    "Verif.SolverLimits.C56_limits",
    "Verif.SolverLimits.C56_messages_partial",
    "Verif.SolverLimits.C56_messages_fails"
   ],
   "note": "solver_args given to Model.load are discarded when the document has a solver section (C56_arguments_fails). After a solve that failed, the level of messages stays that for debugging, also when the solver is set up again (C56_messages_fails)."
  },
  {
   "property": "C57",
   "status": "partial",
   "theorems": [
    "Verif.Constraints.C57_values",
    "Verif.Constraints.C57_ignore_nan",
    "Verif.Constraints.C57_nan",
    "Verif.Constraints.C57_order",
    "Verif.Constraints.C57_temporal_partial",
    "Verif.Constraints.C57_temporal_fails",
    "Verif.Constraints.C57_recorders_partial",
    "Verif.Constraints.C57_recorders_fails",
    "Verif.Constraints.C57_recorders_nan_fails"
   ],
   "note": "Across scenarios proved for all functions; aggregation over time with ignore_nan always raises (C57_temporal_fails); AggregatedRecorder raises for the median and skips NaN in max/min. Percentiles and scores are in C93; user functions are not modelled."
  },
  {
   "property": "C58",
   "status": "proved",
   "theorems": [
    "Verif.Recorders.C58_consistent",
    "Verif.Recorders.C58_range",
    "Verif.Recorders.C58_stored"
   ],
   "note": ""
  },
  {
   "property": "C59",
   "status": "partial",
   "theorems": [
    "Verif.Recorders.C59_rows",
    "Verif.Recorders.C59_total_partial",
    "Verif.Recorders.C59_last_year_fails"
   ],
   "note": "The sum misses one nanosecond of volume for each timestep that crosses a year end, and the part of the last timestep after the last year (C59_last_year_fails)."
  },
  {
   "property": "C60",
   "status": "partial",
   "theorems": [
    "Verif.Functions.C60_polynomial",
    "Verif.Functions.C60_polynomial2",
    "Verif.Functions.C60_flow_fails",
    "Verif.Functions.C60_activation",
    "Verif.Functions.C60_rectifier_fails",
    "Verif.Functions.C60_logistic"
   ],
   "note": "The flow input of the polynomial parameter is always zero when it is evaluated (C60_flow_fails); the rectifier is below its minimum output for non-positive variables (C60_rectifier_fails)."
  },
  {
   "property": "C61",
   "status": "partial",
   "theorems": [
    "Verif.NodeRun.C61_solved",
    "Verif.NodeRun.C61_plain",
    "Verif.NodeRun.C61_composite_partial",
    "Verif.NodeRun.C61_fails"
   ],
   "note": "Violated when a composite member comes later in the graph than the aggregated node (C61_fails)."
  },
  {
   "property": "C62",
   "status": "proved",
   "theorems": [
    "Verif.NodeRun.C62_sum",
    "Verif.NodeRun.C62_fraction",
    "Verif.NodeRun.C62_not_exact",
    "Verif.AggregatedStart.C62_start_volume"
   ],
   "note": ""
  },
  {
   "property": "C63",
   "status": "partial",
   "theorems": [
    "Verif.Recorders.C63_minimum_volume",
    "Verif.Recorders.C63_minimum_threshold",
    "Verif.Recorders.C63_array_storage",
    "Verif.Recorders.C63_normalised_partial",
    "Verif.Recorders.C63_normalised_fails"
   ],
   "note": "Normalised storage: control curves strictly between 0 and 1; at 1 a full reservoir stops the run with a division by zero, at 0 an empty one is recorded as 0 (C63_normalised_fails)."
  },
  {
   "property": "C64",
   "status": "proved",
   "theorems": [
    "Verif.Recorders.C64_rolling_window",
    "Verif.Recorders.C64_rolling_mean_flow",
    "Verif.Recorders.C64_days"
   ],
   "note": ""
  },
  {
   "property": "C65",
   "status": "partial",
   "theorems": [
    "Verif.Composite.C65_slots",
    "Verif.Composite.C65_created",
    "Verif.Composite.C65_balance",
    "Verif.Composite.C65_proportional",
    "Verif.Composite.C65_shares_partial",
    "Verif.Composite.C65_routes",
    "Verif.Composite.C65_split_fails",
    "Verif.Composite.C65_no_steps_fails"
   ],
   "note": "Nothing is lost, the segments share the flow in the given ratio, an extra outlet delivers at most its share and the first outlet at least its own. Exact shares at the outlets are not enforced by the code: the segment of an extra outlet also leads to the first outlet (C65_split_fails)."
  },
  {
   "property": "C66",
   "status": "partial",
   "theorems": [
    "Verif.Opt.C66_assign",
    "Verif.Opt.C66_types",
    "Verif.Opt.C66_rounding",
    "Verif.Opt.C66_within",
    "Verif.Opt.C66_current",
    "Verif.Opt.C66_given",
    "Verif.Opt.C66_population",
    "Verif.Opt.C66_unreadable",
    "Verif.Opt.C66_given_read",
    "Verif.Opt.C66_platypus",
    "Verif.Opt.C66_objectives",
    "Verif.Opt.C66_pygmo_partial",
    "Verif.Opt.C66_pygmo_equality_fails",
    "Verif.Opt.C66_pygmo_integers_fails",
    "Verif.Opt.C66_pygmo_doubles_partial"
   ],
   "note": "Proved for the platypus wrapper. The pygmo wrapper reports the value instead of its distance to the bound for equality constraints and raises for parameters with integer variables (C66_pygmo_equality_fails, C66_pygmo_integers_fails)."
  },
  {
   "property": "C67",
   "status": "partial",
   "theorems": [
    "Verif.Vars.C67_set_get",
    "Verif.Vars.C67_first",
    "Verif.Vars.C67_set_current",
    "Verif.Vars.C67_view",
    "Verif.Vars.C67_days",
    "Verif.Vars.C67_days_count",
    "Verif.Vars.C67_bounds",
    "Verif.Vars.C67_range_partial",
    "Verif.Vars.C67_range_fails",
    "Verif.Vars.C67_bounds_length_fails",
    "Verif.Vars.C67_curve_duplicate_fails",
    "Verif.Vars.C67_curve_others",
    "Verif.Vars.C67_knots",
    "Verif.Vars.C67_profile",
    "Verif.Vars.C67_monthly",
    "Verif.Vars.C67_numbers",
    "Verif.Vars.C67_harmonic",
    "Verif.Vars.C67_harmonic_made"
   ],
   "note": "Declared bounds: proved for explicit bounds of the days, and for a range if it stays within the year; otherwise a value within the declared bounds is refused (C67_range_fails). A control curve with a repeated variable index does not return what was set (C67_curve_duplicate_fails)."
  },
  {
   "property": "C68",
   "status": "partial",
   "theorems": [
    "Verif.Once.C68_same",
    "Verif.Once.C68_off",
    "Verif.Once.C68_cost_fails",
    "Verif.Once.C68_replaced_fails",
    "Verif.Once.C68_factor_fails"
   ],
   "note": "Proved for every history in which fixed costs keep their value and constant limits and factors stay constant since the last setup. A cost given as a number that is changed between runs is ignored (C68_cost_fails); a constant limit replaced by a varying parameter makes the next reset fail (C68_replaced_fails)."
  },
  {
   "property": "C69",
   "status": "partial",
   "theorems": [
    "Verif.Coupled.C69_seen",
    "Verif.Coupled.C69_value",
    "Verif.Coupled.C69_check",
    "Verif.Coupled.C69_load_iff",
    "Verif.Coupled.C69_load_partial",
    "Verif.Coupled.C69_timestep_fails",
    "Verif.Coupled.C69_solver_fails",
    "Verif.Coupled.C69_duplicate_fails",
    "Verif.Coupled.C69_again_fails"
   ],
   "note": "What is read and when, and the scenarios: proved. The timestep length of the coupled document and the solver passed to load have no effect (C69_timestep_fails, C69_solver_fails), sub-models of the same name replace each other (C69_duplicate_fails), and an earlier model reading a later one starts a second run from the last value of the first (C69_again_fails)."
  },
  {
   "property": "C70",
   "status": "partial",
   "theorems": [
    "Verif.Tables.C70_rows",
    "Verif.Tables.C70_run",
    "Verif.Tables.C70_buffer",
    "Verif.Tables.C70_buffer_size",
    "Verif.Tables.C70_coupled_partial",
    "Verif.Tables.C70_coupled_fails",
    "Verif.Tables.C70_restart_fails",
    "Verif.Tables.C70_zero_fails",
    "Verif.Tables.C70_columns_partial",
    "Verif.Tables.C70_columns_fails",
    "Verif.Tables.C70_cell",
    "Verif.Tables.C70_items_partial",
    "Verif.Tables.C70_items_fails"
   ],
   "note": "Rows: proved for runs of one model, also when stopped by an exception. In coupled runs the last row of other sub-models is not written unless the buffer divides the run (C70_coupled_fails); a reset to a later start overwrites earlier rows (C70_restart_fails); data frames ignore slices and user combinations in their labels (C70_columns_fails); names of two characters are taken apart and node objects raise (C70_items_fails)."
  },
  {
   "property": "C71",
   "status": "partial",
   "theorems": [
    "Verif.Labels.C71_labels_partial",
    "Verif.Labels.C71_dirty",
    "Verif.Labels.C71_first",
    "Verif.Labels.C71_added",
    "Verif.Labels.C71_exist",
    "Verif.Labels.C71_changed_fails"
   ],
   "note": "Proved as long as the selection is not changed after the last setup. A changed slice or table of combinations does not make the model be set up again, so the results are of the old members under the new labels (C71_changed_fails)."
  },
  {
   "property": "C72",
   "status": "partial",
   "theorems": [
    "Verif.Events.C72_duration",
    "Verif.Events.C72_statistic",
    "Verif.Events.C72_total_days",
    "Verif.Events.C72_total_value",
    "Verif.Events.C72_coupled_fails"
   ],
   "note": "Proved for runs of a single model. In other sub-models of a coupled run events in progress at the end are one timestep too short (C72_coupled_fails)."
  },
  {
   "property": "C73",
   "status": "partial",
   "theorems": [
    "Verif.Expressions.C73_partial",
    "Verif.Expressions.C73_constructed",
    "Verif.Expressions.C73_shared_fails",
    "Verif.Expressions.C73_removed_fails",
    "Verif.Expressions.C73_attribute_fails",
    "Verif.Expressions.C73_empty_fails",
    "Verif.Expressions.C73_negative_index",
    "Verif.Expressions.C73_rewired",
    "Verif.Expressions.C73_released",
    "Verif.Expressions.C73_indexed"
   ],
   "note": "Proved for every history of constructors and setters that does not replace one of two uses of the same parameter and does not assign plain attributes; those lose the dependency, so that values of the previous timestep are used (C73_shared_fails, C73_removed_fails, C73_attribute_fails)."
  },
  {
   "property": "C74",
   "status": "proved",
   "theorems": [
    "Verif.ScenarioTables.C74_value",
    "Verif.ScenarioTables.C74_defined",
    "Verif.ScenarioTables.C74_wrapper",
    "Verif.ScenarioTables.C74_position"
   ],
   "note": "For every set of scenarios and selection of combinations. Reading tables from files is not modelled."
  },
  {
   "property": "C75",
   "status": "partial",
   "theorems": [
    "Verif.DurationCurves.C75_unique",
    "Verif.DurationCurves.C75_monotone",
    "Verif.DurationCurves.C75_exceedance",
    "Verif.DurationCurves.C75_flow",
    "Verif.DurationCurves.C75_storage",
    "Verif.DurationCurves.C75_season",
    "Verif.DurationCurves.C75_deviation_partial",
    "Verif.DurationCurves.C75_document_fails"
   ],
   "note": "Curves: proved. Deviations: proved for recorders made by the constructor; load drops the scenario of the document (C75_document_fails). Values are finite."
  },
  {
   "property": "C76",
   "status": "partial",
   "theorems": [
    "Verif.Calibration.C76_errors",
    "Verif.Calibration.C76_bias",
    "Verif.Calibration.C76_efficiency",
    "Verif.Calibration.C76_columns_partial",
    "Verif.Calibration.C76_one_series_fails"
   ],
   "note": "Proved for an observed series per scenario. One observed series with several scenarios raises (C76_one_series_fails). The alignment of the observations to the timesteps is C77."
  },
  {
   "property": "C77",
   "status": "partial",
   "theorems": [
    "Verif.Resample.C77_tick_partial",
    "Verif.Resample.C77_accepts",
    "Verif.Resample.C77_periods_partial",
    "Verif.Resample.C77_calendar_partial",
    "Verif.Resample.C77_gap_fails",
    "Verif.Resample.C77_end_fails",
    "Verif.Resample.C77_uneven_fails",
    "Verif.Resample.C77_annual_fails"
   ],
   "note": "Means proved for timesteps all of whose days have data. Timesteps with missing days are averaged over the rest instead of refused (C77_gap_fails, C77_end_fails); rows and timesteps whose lengths do not divide one another give wrong means (C77_uneven_fails); annual data on monthly models are refused instead of filled (C77_annual_fails). Pandas' resample is part of the model, see its header."
  },
  {
   "property": "C78",
   "status": "partial",
   "theorems": [
    "Verif.License.C78_storage_left",
    "Verif.License.C78_storage_partial",
    "Verif.License.C78_week_fails",
    "Verif.License.C78_remaining",
    "Verif.License.C78_exponential_partial",
    "Verif.License.C78_hyperbola",
    "Verif.License.C78_exceeds_fails"
   ],
   "note": "Proved for daily timesteps. With longer timesteps the storage licence limits the daily flow by a volume (C78_week_fails) and the exponential licence can exceed its maximum (C78_exceeds_fails). Real exponential; annual amounts greater than zero."
  },
  {
   "property": "C79",
   "status": "partial",
   "theorems": [
    "Verif.BreakLink.C79_edge",
    "Verif.BreakLink.C79_edge_results",
    "Verif.BreakLink.C79_edge_optimum",
    "Verif.BreakLink.C79_route_partial",
    "Verif.BreakLink.C79_route_optimum_partial",
    "Verif.BreakLink.C79_through",
    "Verif.BreakLink.C79_volume",
    "Verif.BreakLink.C79_domain_fails",
    "Verif.BreakLink.C79_members_fails",
    "Verif.BreakLink.C79_loop_fails"
   ],
   "note": "Edge solver: exact correspondence of solutions. Route solver: where the two solvers are comparable (C24), with any number of domains. The internal nodes ignore a domain given to the break link, so it can not replace a link outside the default domain (C79_domain_fails). For the route solver, an aggregated node with members on both sides (C79_members_fails) and a link leading back (C79_loop_fails) make a genuine difference."
  },
  {
   "property": "C80",
   "status": "partial",
   "theorems": [
    "Verif.Interpolation.C80_between",
    "Verif.Interpolation.C80_defined",
    "Verif.Interpolation.C80_enclosed",
    "Verif.Interpolation.C80_points",
    "Verif.Interpolation.C80_order",
    "Verif.Interpolation.C80_range",
    "Verif.Interpolation.C80_inverse",
    "Verif.Interpolation.C80_monotone",
    "Verif.Interpolation.C80_volume",
    "Verif.Interpolation.C80_flow_fails"
   ],
   "note": "Linear interpolation with bounds errors (the defaults); SciPy itself is modelled after its documentation. A table of positive flows stops every run in its first timestep, because runs start with a previous flow of zero (C80_flow_fails)."
  },
  {
   "property": "C81",
   "status": "partial",
   "theorems": [
    "Verif.Groundwater.C81_accepted",
    "Verif.Groundwater.C81_volumes",
    "Verif.Groundwater.C81_initial_level",
    "Verif.Groundwater.C81_stream",
    "Verif.Groundwater.C81_dry",
    "Verif.Groundwater.C81_monotone",
    "Verif.Groundwater.C81_run",
    "Verif.Groundwater.C81_forced_route",
    "Verif.Groundwater.C81_forced_edge_partial",
    "Verif.Groundwater.C81_fraction_fails",
    "Verif.Groundwater.C81_early_fails",
    "Verif.Lp.C81_forced_edge"
   ],
   "note": "The initial level is ignored if the aquifer was created with an initial fraction, and can not be read before the model is set up. Edge solver: one domain, or basic solutions."
  },
  {
   "property": "C82",
   "status": "partial",
   "theorems": [
    "Verif.NodeLoading.C82_same",
    "Verif.NodeLoading.C82_factors",
    "Verif.NodeLoading.C82_storage_partial",
    "Verif.NodeLoading.C82_null_fails",
    "Verif.NodeLoading.C82_node",
    "Verif.NodeLoading.C82_loss",
    "Verif.NodeLoading.C82_storage_attributes",
    "Verif.NodeLoading.C82_catchment_partial",
    "Verif.NodeLoading.C82_catchment_fails",
    "Verif.NodeLoading.C82_gauge",
    "Verif.NodeLoading.C82_reservoir_cost",
    "Verif.NodeLoading.C82_reservoir_partial",
    "Verif.NodeLoading.C82_reservoir_fails",
    "Verif.NodeLoading.C82_curve_fails",
    "Verif.NodeLoading.C82_split_fails",
    "Verif.NodeLoading.C82_river_split",
    "Verif.NodeLoading.C82_aggregated_fails",
    "Verif.NodeLoading.C82_aquifer_fails",
    "Verif.NodeLoading.C82_constructor",
    "Verif.NodeLoading.C82_document",
    "Verif.NodeLoading.C82_aggregated",
    "Verif.NodeLoading.C82_piecewise",
    "Verif.NodeLoading.C82_split"
   ],
   "note": "Holds for plain nodes, loss links, catchments, piecewise links and gauges, and for storages without a null minimum. Fails for reservoirs with both costs (the above-curve cost is ignored) or a curve by name, for the costs of splits, for aggregated nodes and for aquifers given by area."
  },
  {
   "property": "C83",
   "status": "partial",
   "theorems": [
    "Verif.River.C83_limits",
    "Verif.River.C83_discharge",
    "Verif.River.C83_catchment_route",
    "Verif.River.C83_catchment_edge",
    "Verif.River.C83_negative",
    "Verif.River.C83_negative_edge",
    "Verif.River.C83_attributes",
    "Verif.River.C83_costs",
    "Verif.River.C83_mrf_first",
    "Verif.River.C83_mrf_never",
    "Verif.River.C83_mrf_first_edge",
    "Verif.River.C83_mrf_never_edge",
    "Verif.River.C83_discharge_edge",
    "Verif.River.C83_discharge_fails"
   ],
   "note": "Holds for both solvers (edge solver: basic solutions), except that a discharge in line stops the edge solver (C83_discharge_fails)."
  },
  {
   "property": "C84",
   "status": "partial",
   "theorems": [
    "Verif.LpSolve.C84_setup",
    "Verif.LpSolve.C84_feasible_partial",
    "Verif.LpSolve.C84_flows",
    "Verif.LpSolve.C84_objective",
    "Verif.LpSolve.C84_same_optimum_partial",
    "Verif.LpSolve.C84_over_fails",
    "Verif.LpSolve.C84_stale_fails",
    "Verif.LpSolve.C84_offset_fails",
    "Verif.LpSolve.C84_parameter_fails"
   ],
   "note": "Proved for plain models. Counterexamples: a storage above its maximum makes the lp_solve problem infeasible (C84_over_fails); limits of aggregated nodes are written once (C84_stale_fails); constant parameters' scale and offset are ignored in factors (C84_offset_fails); a parameter as limit of an aggregated node stops the setup (C84_parameter_fails)."
  },
  {
   "property": "C85",
   "status": "partial",
   "theorems": [
    "Verif.Basis.C85_alone",
    "Verif.Basis.C85_together",
    "Verif.Basis.C85_subset",
    "Verif.Basis.C85_again_partial",
    "Verif.Basis.C85_presolve_fails"
   ],
   "note": "The part on re-running is false with use_presolve (C85_presolve_fails): reset does not clear has_presolved; proved without it."
  },
  {
   "property": "C86",
   "status": "partial",
   "theorems": [
    "Verif.WeightedProfile.C86_average",
    "Verif.WeightedProfile.C86_between",
    "Verif.WeightedProfile.C86_refused",
    "Verif.WeightedProfile.C86_recorded",
    "Verif.WeightedProfile.C86_roundtrip",
    "Verif.WeightedProfile.C86_parameter_fails",
    "Verif.WeightedProfile.C86_lengths_fails"
   ],
   "note": "Constant parameters as maximum volumes are refused (C86_parameter_fails) and surplus storages or profiles silently ignored (C86_lengths_fails)."
  },
  {
   "property": "C87",
   "status": "partial",
   "theorems": [
    "Verif.Csv.C87_file_partial",
    "Verif.Csv.C87_finished",
    "Verif.Csv.C87_crash",
    "Verif.Csv.C87_refused",
    "Verif.Csv.C87_rows",
    "Verif.Csv.C87_names",
    "Verif.Csv.C87_stale_fails",
    "Verif.Csv.C87_options_fails"
   ],
   "note": "After timesteps that were never finished, a reset can leave the end of the old text behind the new (C87_stale_fails); writer options are refused with a TypeError (C87_options_fails). Compression is not modelled."
  },
  {
   "property": "C88",
   "status": "partial",
   "theorems": [
    "Verif.Simulation.C88_flows",
    "Verif.Simulation.C88_others",
    "Verif.Simulation.C88_volumes",
    "Verif.Simulation.C88_balance",
    "Verif.Simulation.C88_virtual",
    "Verif.Simulation.C88_use",
    "Verif.Simulation.C88_ensemble_use",
    "Verif.Simulation.C88_solvers_partial",
    "Verif.Simulation.C88_best_partial",
    "Verif.Simulation.C88_results_partial",
    "Verif.Simulation.C88_scenario",
    "Verif.Simulation.C88_ensemble_flows",
    "Verif.Simulation.C88_ensemble_volumes",
    "Verif.Simulation.C88_ensemble_balance",
    "Verif.Simulation.C88_ensemble_virtual",
    "Verif.Simulation.C88_independent",
    "Verif.Simulation.C88_ensemble_solvers_partial",
    "Verif.Simulation.C88_ensemble_best_partial",
    "Verif.Simulation.C88_cycle_fails"
   ],
   "note": "The equivalence of the solvers is proved for acyclic models as in C24 (it is false with cycles, C88_cycle_fails, and see C24_fails). The C88_ensemble theorems and C88_scenario are for any number of scenarios. Exact arithmetic; components acting on the state in other ways (aquifers, rolling storages) are apart in C81 and C14."
  },
  {
   "property": "C89",
   "status": "partial",
   "theorems": [
    "Verif.Levels.C89_volume",
    "Verif.Levels.C89_level_partial",
    "Verif.Levels.C89_level_fails",
    "Verif.Levels.C89_fixed",
    "Verif.Levels.C89_seen",
    "Verif.Levels.C89_recorder",
    "Verif.Levels.C89_storage_threshold",
    "Verif.Levels.C89_node_threshold",
    "Verif.Levels.C89_recorder_threshold",
    "Verif.Levels.C89_dates",
    "Verif.Levels.C89_discount"
   ],
   "note": "The level recorded for a timestep belongs to the volume at its beginning (C89_level_fails against the volume recorded in the same row)."
  },
  {
   "property": "C90",
   "status": "partial",
   "theorems": [
    "Verif.Datasets.C90_cell",
    "Verif.Datasets.C90_order",
    "Verif.Datasets.C90_column",
    "Verif.Datasets.C90_row",
    "Verif.Datasets.C90_repeated",
    "Verif.Datasets.C90_table",
    "Verif.Datasets.C90_missing",
    "Verif.Datasets.C90_rows_fails",
    "Verif.Datasets.C90_checked",
    "Verif.Datasets.C90_embedded",
    "Verif.Datasets.C90_mismatch",
    "Verif.Datasets.C90_type",
    "Verif.Datasets.C90_full_name",
    "Verif.Datasets.C90_short_name",
    "Verif.Datasets.C90_unknown",
    "Verif.Datasets.C90_path",
    "Verif.Datasets.C90_read",
    "Verif.Datasets.C90_suffix_fails",
    "Verif.Datasets.C90_web_fails"
   ],
   "note": "A column together with a list of rows raises an IndexingError, and missing rows are not named (C90_rows_fails); a parameter class without the ending is not found with it (C90_suffix_fails). Web addresses are taken for files under the directory of the model (C90_web_fails). The reading functions of pandas are trusted."
  },
  {
   "property": "C91",
   "status": "partial",
   "theorems": [
    "Verif.ModelCache.C91_history_partial",
    "Verif.ModelCache.C91_cleared",
    "Verif.ModelCache.C91_accepted",
    "Verif.ModelCache.C91_uid_fails"
   ],
   "note": "Needs that a run does not depend on what the model did before (the subject of C18, C32, C34) and that no identifier is given for two documents: with the same explicit uid a wrapper evaluates the model of another one (C91_uid_fails)."
  },
  {
   "property": "C92",
   "status": "partial",
   "theorems": [
    "Verif.Rerun.C92_rerun",
    "Verif.Rerun.C92_second_run",
    "Verif.Rerun.C92_seq",
    "Verif.Rerun.C92_plain",
    "Verif.Rerun.C92_delay",
    "Verif.Rerun.C92_mean",
    "Verif.Rerun.C92_flow",
    "Verif.Rerun.C92_deficit",
    "Verif.Rerun.C92_threshold",
    "Verif.Rerun.C92_storage_licence",
    "Verif.Rerun.C92_annual_licence",
    "Verif.Rerun.C92_record",
    "Verif.Rerun.C92_flow_values",
    "Verif.Rerun.C92_delay_values",
    "Verif.Rerun.C92_record_values",
    "Verif.Rerun.C92_child_fails"
   ],
   "note": "False where the previous flow of a node with a parent is used: Model.reset skips such nodes, and an annual licence on one takes the last flow of the first run from the second (C92_child_fails, as C18_fails)."
  },
  {
   "property": "C93",
   "status": "partial",
   "theorems": [
    "Verif.Aggregators.C93_names",
    "Verif.Aggregators.C93_arguments",
    "Verif.Aggregators.C93_dict_case_fails",
    "Verif.Aggregators.C93_round_trip_partial",
    "Verif.Aggregators.C93_round_trip_fails",
    "Verif.Aggregators.C93_custom_fails",
    "Verif.Aggregators.C93_refused_partial",
    "Verif.Aggregators.C93_refused_fails",
    "Verif.Aggregators.C93_score",
    "Verif.Aggregators.C93_score_bounds",
    "Verif.Aggregators.C93_percentile",
    "Verif.Aggregators.C93_percentileofscore",
    "Verif.Aggregators.C93_columns"
   ],
   "note": "False in places: the name in a dictionary must be in small letters (C93_dict_case_fails); func reads back as the name alone, so the arguments of a percentile are lost (C93_round_trip_fails); the bare name custom is accepted without function (C93_custom_fails); a refused assignment loses the user function (C93_refused_fails). numpy's and scipy's functions are modelled by their documentation; other arguments of them are not modelled."
  },
  {
   "property": "C94",
   "status": "partial",
   "theorems": [
    "Verif.Checks.C94_check_graph",
    "Verif.Checks.C94_no_flow",
    "Verif.Checks.C94_orphans_partial",
    "Verif.Checks.C94_factors_fails",
    "Verif.Checks.C94_orphan_harmless",
    "Verif.Checks.C94_check"
   ],
   "note": "False for parameters used as factors of an aggregated node: they are kept in a list that AbstractNode.components overlooks, and are reported as orphans (C94_factors_fails)."
  },
  {
   "property": "C95",
   "status": "partial",
   "theorems": [
    "Verif.Collections.C95_unique",
    "Verif.Collections.C95_lookup",
    "Verif.Collections.C95_collections",
    "Verif.Collections.C95_iterator",
    "Verif.Collections.C95_unnamed",
    "Verif.Collections.C95_delete_fails",
    "Verif.Collections.C95_failed_constructor_fails",
    "Verif.Collections.C95_same_name_fails",
    "Verif.Collections.C95_setitem_partial",
    "Verif.Collections.C95_setitem_fails"
   ],
   "note": "False: deleting from a collection (or assigning into it) acts on a list made for the occasion and changes nothing in the model (C95_delete_fails); a constructor that fails after Component.__init__ leaves the component in the graph with its name taken (C95_failed_constructor_fails); setting the name a component has is refused (C95_same_name_fails); the key of an item assignment is ignored (C95_setitem_fails)."
  },
  {
   "property": "C96",
   "status": "partial",
   "theorems": [
    "Verif.SolverArrays.C96_route_costs",
    "Verif.SolverArrays.C96_edge_costs",
    "Verif.SolverArrays.C96_factors_partial",
    "Verif.SolverArrays.C96_factor_rows",
    "Verif.SolverArrays.C96_factors_fails",
    "Verif.SolverArrays.C96_weights",
    "Verif.SolverArrays.C96_virtual",
    "Verif.SolverArrays.C96_route_flows",
    "Verif.SolverArrays.C96_edge_flows",
    "Verif.SolverArrays.C96_memory",
    "Verif.SolverArrays.C96_memory_fails"
   ],
   "note": "False in two places: with fewer factors than members of an aggregated node (nothing checks the number) the solver reads beyond the array of factors (C96_factors_fails), and for the row of every aggregated node `malloc(1+length * size)` asks for too few bytes, the last entry being written beyond the end (C96_memory_fails)."
  },
  {
   "property": "C97",
   "status": "partial",
   "theorems": [
    "Verif.SolveErrors.C97_solve_partial",
    "Verif.SolveErrors.C97_handed",
    "Verif.SolveErrors.C97_infinite_fails",
    "Verif.SolveErrors.C97_unsafe_fails",
    "Verif.SolveErrors.C97_scenarios",
    "Verif.SolveErrors.C97_interrupted_fails"
   ],
   "note": "False for infinite costs and volumes (C97_infinite_fails), with the unchecked interface (C97_unsafe_fails) and for interrupted timesteps: the flows of the scenarios before the failed one are reported but not taken from the storages, and the next step goes on with the next timestep (C97_interrupted_fails; C50_step for the calls)."
  },
  {
   "property": "C98",
   "status": "partial",
   "theorems": [
    "Verif.Document.C98_nodes",
    "Verif.Document.C98_loads",
    "Verif.Document.C98_fits",
    "Verif.Document.C98_order_partial",
    "Verif.Document.C98_order_fails",
    "Verif.Document.C98_ends",
    "Verif.Document.C98_circles",
    "Verif.Document.C98_kept",
    "Verif.Document.C98_twice_fails",
    "Verif.Document.C98_existing_fails",
    "Verif.Document.C98_settings_partial",
    "Verif.Document.C98_solver_args_fails",
    "Verif.Document.C98_added_fails",
    "Verif.Document.C98_metadata"
   ],
   "note": "Two entries with the same name are not noticed: the first is lost (C98_twice_fails). References to sub-nodes depend on the order (C98_order_fails). Adding a document with a name that the model has leaves half of the document behind (C98_existing_fails), and the metadata of the model are replaced (C98_added_fails). solver_args are ignored when the document names a solver (C98_solver_args_fails)."
  },
  {
   "property": "C99",
   "status": "partial",
   "theorems": [
    "Verif.Sankey.C99_links",
    "Verif.Sankey.C99_total",
    "Verif.Sankey.C99_selected",
    "Verif.Sankey.C99_defaults",
    "Verif.Sankey.C99_aggregation_fails"
   ],
   "note": "The aggregation over scenarios cannot be chosen: the argument is read under the wrong key, so that the mean is always taken (C99_aggregation_fails)."
  }
 ]
}