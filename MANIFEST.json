{
 "claims": [
  {
   "property": "C01",
   "status": "proved",
   "theorems": [
    "Magma.Engine.C01_fractionation_conserves",
    "Magma.Engine.C01_fractionation_extent",
    "Magma.Engine.C01_fractionated_mass",
    "Magma.Engine.C01_references_untouched",
    "Magma.Engine.C01_ledger",
    "Magma.Engine.C01_reference_budget",
    "Magma.Engine.C01_reference_zero_skips"
   ],
   "note": ""
  },
  {
   "property": "C02",
   "status": "proved",
   "theorems": [
    "Magma.Engine.C02_liquid_fractionation",
    "Magma.Engine.C02_liquid_left",
    "Magma.Engine.C02_off",
    "Magma.Engine.C02_liquid_mass"
   ],
   "note": ""
  },
  {
   "property": "C03",
   "status": "proved",
   "theorems": [
    "Magma.Engine.C03_cleanup_bulk",
    "Magma.Engine.C03_cleanup_liquids",
    "Magma.Engine.C03_cleanup_solid_total",
    "Magma.Engine.C03_cleanup_solid_oxide",
    "Magma.Engine.C03_cleanup_solids",
    "Magma.Engine.C03_cleanup_breaks_balance"
   ],
   "note": ""
  },
  {
   "property": "C04",
   "status": "proved",
   "theorems": [
    "Magma.Engine.C04_nucleation_conserves",
    "Magma.Engine.C04_seed_size",
    "Magma.Engine.C04_terminates",
    "Magma.Engine.C04_subsolidus_pure",
    "Magma.Engine.C04_subsolidus_solution",
    "Magma.Engine.C04_buffer_keeps_balance"
   ],
   "note": ""
  },
  {
   "property": "C05",
   "status": "proved",
   "theorems": [
    "Magma.Engine.C05_dropping_solids_conserves",
    "Magma.Engine.C05_no_liquid"
   ],
   "note": ""
  },
  {
   "property": "C06",
   "status": "proved",
   "theorems": [
    "Magma.Engine.C06_drop_liquid_total",
    "Magma.Engine.C06_two_liquids_conserve",
    "Magma.Engine.C06_three_liquids_duplicate"
   ],
   "note": ""
  },
  {
   "property": "C07",
   "status": "proved",
   "theorems": [
    "Magma.Engine.C07_pure_affinity",
    "Magma.Engine.C07_nucleation_choice",
    "Magma.Engine.C07_suppressed_never_chosen",
    "Magma.Engine.C07_supersaturation_detected"
   ],
   "note": ""
  },
  {
   "property": "C08",
   "status": "proved",
   "theorems": [
    "Magma.Engine.Auto.C08_output_verified"
   ],
   "note": ""
  },
  {
   "property": "C09",
   "status": "proved",
   "theorems": [
    "Magma.Engine.Auto.C09_release_needs_no_liquid",
    "Magma.Engine.Auto.C09_switches_restored",
    "Magma.Engine.Auto.C09_stage_leak",
    "Magma.Engine.Auto.C09_abort_keeps_stage"
   ],
   "note": ""
  },
  {
   "property": "C10",
   "status": "proved",
   "theorems": [
    "Magma.Engine.Path.C10_path",
    "Magma.Engine.Path.C10_no_overshoot",
    "Magma.Engine.Path.C10_enthalpy_path",
    "Magma.Engine.Path.C10_entropy_path",
    "Magma.Engine.Path.C10_volume_path"
   ],
   "note": ""
  },
  {
   "property": "C11",
   "status": "proved",
   "theorems": [
    "Magma.Engine.Path.C11_zero_increment",
    "Magma.Engine.Path.C11_negative_increment"
   ],
   "note": ""
  },
  {
   "property": "C12",
   "status": "proved",
   "theorems": [
    "Magma.Engine.C12_increment_balanced",
    "Magma.Engine.C12_exact_mass",
    "Magma.Engine.C12_whole_run_balanced",
    "Magma.Engine.C12_reference_enthalpy",
    "Magma.Engine.C12_reference_entropy",
    "Magma.Engine.C12_reference_volume",
    "Magma.Engine.C12_negative_increments",
    "Magma.Engine.C12_total_not_updated",
    "Magma.Engine.C12_float_extra_increment"
   ],
   "note": ""
  },
  {
   "property": "C13",
   "status": "proved",
   "theorems": [
    "Magma.Engine.Copy.C13_fresh_equal",
    "Magma.Engine.Copy.C13_fresh_independent",
    "Magma.Engine.Copy.C13_fresh_shared",
    "Magma.Engine.Copy.C13_into_copies",
    "Magma.Engine.Copy.C13_into_liquids_ok",
    "Magma.Engine.Copy.C13_into_liquids_stale",
    "Magma.Engine.Copy.C13_into_absent_stale",
    "Magma.Engine.Copy.C13_restore_keeps_reservoirs",
    "Magma.Engine.Copy.C13_into_fractionated_liquid",
    "Magma.Engine.Copy.C13_into_assim_truncated"
   ],
   "note": ""
  },
  {
   "property": "C14",
   "status": "proved",
   "theorems": [
    "Magma.Engine.Bulk.C14_liquid_mass",
    "Magma.Engine.Bulk.C14_bulk_minus_solids",
    "Magma.Engine.Bulk.C14_zero_is_sticky",
    "Magma.Engine.Bulk.C14_fo2"
   ],
   "note": ""
  },
  {
   "property": "C15",
   "status": "proved",
   "theorems": [
    "Magma.Engine.C15_rejected_unchanged",
    "Magma.Engine.C15_accepted_effect",
    "Magma.Engine.C15_no_solids",
    "Magma.Engine.C15_accepts_infeasible"
   ],
   "note": ""
  },
  {
   "property": "C16",
   "status": "proved",
   "theorems": [
    "Magma.Engine.Newton.C16_bounded",
    "Magma.Engine.Newton.C16_residual_true",
    "Magma.Engine.Newton.C16_stale_component",
    "Magma.Engine.Newton.C16_unmet",
    "Magma.Engine.Newton.C16_linear_exact",
    "Magma.Engine.Newton.C16_entropy_exact",
    "Magma.Engine.Newton.C16_contracts"
   ],
   "note": ""
  },
  {
   "property": "C17",
   "status": "proved",
   "theorems": [
    "Magma.Engine.Liquidus.C17_finds_liquidus",
    "Magma.Engine.Liquidus.C17_refuses"
   ],
   "note": ""
  },
  {
   "property": "C18",
   "status": "proved",
   "theorems": [
    "Magma.Engine.Liquidus.C18_unbounded",
    "Magma.Engine.Liquidus.C18_range_error_leaks",
    "Magma.Engine.Liquidus.C18_range_error_leaks_low"
   ],
   "note": ""
  },
  {
   "property": "C19",
   "status": "proved",
   "theorems": [
    "Magma.Num.Min1d.C19_min1d",
    "Magma.Num.Min1d.C19_feasible"
   ],
   "note": ""
  },
  {
   "property": "C20",
   "status": "proved",
   "theorems": [
    "Magma.Num.Vmmin.C20_metric",
    "Magma.Num.Vmmin.C20_descent_direction",
    "Magma.Num.Vmmin.C20_descends",
    "Magma.Num.Vmmin.C20_secant",
    "Magma.Num.Vmmin.C20_result_below_start",
    "Magma.Num.Vmmin.C20_success",
    "Magma.Num.Vmmin.C20_success_near",
    "Magma.Num.Vmmin.C20_stationary_start_fails",
    "Magma.Num.Vmmin.C20_terminates"
   ],
   "note": ""
  },
  {
   "property": "C21",
   "status": "proved",
   "theorems": [
    "Magma.Thermo.Buffers.C21_temperature_derivatives",
    "Magma.Thermo.Buffers.C21_pressure_derivatives",
    "Magma.Thermo.Buffers.C21_none_pressure_derivative_wrong",
    "Magma.Thermo.Buffers.C21_coh_high_pressure_wrong",
    "Magma.Thermo.Buffers.C21_coh_continuous_at_corner"
   ],
   "note": ""
  },
  {
   "property": "C22",
   "status": "proved",
   "theorems": [
    "Magma.Thermo.Buffers.C22_offset",
    "Magma.Thermo.Buffers.C22_integer_buffers_ignore_offset"
   ],
   "note": ""
  },
  {
   "property": "C23",
   "status": "proved",
   "theorems": [
    "Magma.Thermo.Compo.C23_euler_conversion",
    "Magma.Thermo.Compo.C23_gradient_conversion",
    "Magma.Thermo.Compo.C23_any_phase",
    "Magma.Thermo.Extensive.C23_gradient",
    "Magma.Thermo.Extensive.C23_hessian",
    "Magma.Thermo.Extensive.C23_hessian_symmetric",
    "Magma.Thermo.Extensive.C23_euler"
   ],
   "note": ""
  },
  {
   "property": "C24",
   "status": "proved",
   "theorems": [
    "Magma.Thermo.Mixing.C24_biotite",
    "Magma.Thermo.Mixing.C24_biotite_potentials",
    "Magma.Thermo.Mixing.C24_biotite_activities",
    "Magma.Thermo.Mixing.C24_olivineSx",
    "Magma.Thermo.Mixing.C24_olivineSx_potentials",
    "Magma.Thermo.Mixing.C24_olivineSx_activities",
    "Magma.Thermo.Mixing.C24_perovskite",
    "Magma.Thermo.Mixing.C24_perovskite_potentials",
    "Magma.Thermo.Mixing.C24_perovskite_activities",
    "Magma.Thermo.Mixing.C24_ringwoodite",
    "Magma.Thermo.Mixing.C24_ringwoodite_potentials",
    "Magma.Thermo.Mixing.C24_ringwoodite_activities",
    "Magma.Thermo.Mixing.C24_wadsleyite",
    "Magma.Thermo.Mixing.C24_wadsleyite_potentials",
    "Magma.Thermo.Mixing.C24_wadsleyite_activities",
    "Magma.Thermo.Mixing.C24_wustite",
    "Magma.Thermo.Mixing.C24_wustite_potentials",
    "Magma.Thermo.Mixing.C24_wustite_activities",
    "Magma.Thermo.Mixing.C24_ilmenite",
    "Magma.Thermo.Mixing.C24_ilmenite_potentials",
    "Magma.Thermo.Mixing.C24_ilmenite_activities",
    "Magma.Thermo.Mixing.C24_alloySolid",
    "Magma.Thermo.Mixing.C24_alloySolid_potentials",
    "Magma.Thermo.Mixing.C24_alloySolid_activities",
    "Magma.Thermo.Mixing.C24_alloyLiquid",
    "Magma.Thermo.Mixing.C24_alloyLiquid_potentials",
    "Magma.Thermo.Mixing.C24_alloyLiquid_activities",
    "Magma.Thermo.Mixing.C24_feldspar",
    "Magma.Thermo.Mixing.C24_feldspar_potentials",
    "Magma.Thermo.Mixing.C24_feldspar_activities",
    "Magma.Thermo.Mixing.C24_garnet",
    "Magma.Thermo.Mixing.C24_garnet_potentials",
    "Magma.Thermo.Mixing.C24_garnet_activities",
    "Magma.Thermo.Mixing.C24_kalsilite",
    "Magma.Thermo.Mixing.C24_kalsilite_potentials",
    "Magma.Thermo.Mixing.C24_kalsilite_activities",
    "Magma.Thermo.Mixing.C24_leucite",
    "Magma.Thermo.Mixing.C24_leucite_potentials",
    "Magma.Thermo.Mixing.C24_leucite_activities",
    "Magma.Thermo.Mixing.C24_hornblende",
    "Magma.Thermo.Mixing.C24_hornblende_potentials",
    "Magma.Thermo.Mixing.C24_hornblende_activities",
    "Magma.Thermo.Mixing.C24_majorite",
    "Magma.Thermo.Mixing.C24_majorite_potentials",
    "Magma.Thermo.Mixing.C24_majorite_activities",
    "Magma.Thermo.Mixing.C24_euler",
    "Magma.Thermo.Mixing.C24_potential_is_derivative",
    "Magma.Thermo.Mixing.C24_activity",
    "Magma.Thermo.Mixing.C24_activity_derivative",
    "Magma.Thermo.Mixing.C24_gibbs_duhem",
    "Magma.Thermo.Mixing.C24_heat_capacity",
    "Verif.Thermo.Ordering.C24_less_ends",
    "Verif.Thermo.Ordering.C24_ends_activity",
    "Verif.Thermo.Ordering.C24_ends_potential",
    "Verif.Thermo.Ordering.C24_ends_activity_derivative",
    "Verif.Thermo.Ordering.Amphibole.C24_amphibole",
    "Verif.Thermo.Ordering.Amphibole.C24_amphibole_activity",
    "Verif.Thermo.Ordering.Amphibole.C24_amphibole_activity_derivative",
    "Verif.Thermo.Ordering.Amphibole.C24_amphibole_potential",
    "Verif.Thermo.Ordering.Clinoamphibole.C24_clinoamphibole",
    "Verif.Thermo.Ordering.Cummingtonite.C24_cummingtonite",
    "Verif.Thermo.Ordering.Cummingtonite.C24_cummingtonite_activity",
    "Verif.Thermo.Ordering.Cummingtonite.C24_cummingtonite_activity_derivative",
    "Verif.Thermo.Ordering.Cummingtonite.C24_cummingtonite_potential",
    "Verif.Thermo.Ordering.Melilite.C24_melilite_clamped",
    "Verif.Thermo.Ordering.PureGehlenite.C24_pure_gehlenite",
    "Verif.Thermo.Ordering.Melilite.C24_melilite",
    "Verif.Thermo.Ordering.Melilite.C24_melilite_activity",
    "Verif.Thermo.Ordering.Melilite.C24_melilite_activity_derivative",
    "Verif.Thermo.Ordering.Melilite.C24_melilite_potential",
    "Verif.Thermo.Ordering.Nepheline.C24_nepheline",
    "Verif.Thermo.Ordering.Nepheline.C24_nepheline_activity",
    "Verif.Thermo.Ordering.Nepheline.C24_nepheline_activity_derivative",
    "Verif.Thermo.Ordering.Nepheline.C24_nepheline_potential",
    "Verif.Thermo.Ordering.Olivine.C24_olivine",
    "Verif.Thermo.Ordering.Olivine.C24_olivine_activity",
    "Verif.Thermo.Ordering.Olivine.C24_olivine_activity_derivative",
    "Verif.Thermo.Ordering.Olivine.C24_olivine_potential",
    "Verif.Thermo.Ordering.PurePseudobrookite.C24_pure_pseudobrookite",
    "Verif.Thermo.Ordering.PureFerropseudobrookite.C24_pure_ferropseudobrookite",
    "Verif.Thermo.Ordering.PureKarrooite.C24_pure_karrooite",
    "Verif.Thermo.Ordering.OrthoOxide.C24_ortho_oxide",
    "Verif.Thermo.Ordering.OrthoOxide.C24_ortho_oxide_activity",
    "Verif.Thermo.Ordering.OrthoOxide.C24_ortho_oxide_activity_derivative",
    "Verif.Thermo.Ordering.OrthoOxide.C24_ortho_oxide_potential",
    "Verif.Thermo.Ordering.Orthoamphibole.C24_orthoamphibole",
    "Verif.Thermo.Ordering.PureIlmenite.C24_pure_ilmenite",
    "Verif.Thermo.Ordering.PureGeikielite.C24_pure_geikielite",
    "Verif.Thermo.Ordering.PurePyrophanite.C24_pure_pyrophanite",
    "Verif.Thermo.Ordering.Rhombohedral.C24_rhombohedral",
    "Verif.Thermo.Ordering.Rhombohedral.C24_rhombohedral_activity",
    "Verif.Thermo.Ordering.Rhombohedral.C24_rhombohedral_activity_derivative",
    "Verif.Thermo.Ordering.Rhombohedral.C24_rhombohedral_potential",
    "Verif.Thermo.Ordering.PureHercynite.C24_pure_hercynite",
    "Verif.Thermo.Ordering.PureMagnetite.C24_pure_magnetite",
    "Verif.Thermo.Ordering.PureSpinel.C24_pure_spinel",
    "Verif.Thermo.Ordering.Spinel.C24_spinel",
    "Verif.Thermo.Ordering.Spinel.C24_spinel_activity",
    "Verif.Thermo.Ordering.Spinel.C24_spinel_activity_derivative",
    "Verif.Thermo.Ordering.Spinel.C24_spinel_potential",
    "Verif.Thermo.Ordering.C24_ordering",
    "Verif.Thermo.Ordering.C24_ordering_activity",
    "Verif.Thermo.Ordering.C24_ordering_potential",
    "Verif.Thermo.Ordering.C24_ordering_euler",
    "Verif.Thermo.Ordering.C24_ordering_activity_derivative"
   ],
   "note": ""
  },
  {
   "property": "C25",
   "status": "proved",
   "theorems": [
    "Magma.Thermo.Compo.C25_roundtrip",
    "Magma.Thermo.Compo.C25_sum_one",
    "Magma.Thermo.Compo.C25_inverse",
    "Magma.Thermo.Compo.C25_scale",
    "Magma.Thermo.Compo.C25_derivatives",
    "Magma.Thermo.Compo.C25_symmetric",
    "Magma.Thermo.Compo.C25_dr",
    "Magma.Thermo.Compo.C25_feldspar_snap",
    "Magma.Thermo.Compo.C25_olivine",
    "Magma.Thermo.Compo.C25_cpx",
    "Magma.Thermo.Compo.C25_opx",
    "Magma.Thermo.Compo.C25_amphibole",
    "Magma.Thermo.Compo.C25_cummingtonite",
    "Magma.Thermo.Compo.C25_orthoOxide",
    "Magma.Thermo.Compo.C25_rhombohedral",
    "Magma.Thermo.Compo.C25_spinel",
    "Magma.Thermo.Compo.C25_nepheline",
    "Magma.Thermo.Compo.C25_kalsilite",
    "Magma.Thermo.Compo.C25_majorite",
    "Magma.Thermo.Compo.C25_simple",
    "Magma.Thermo.Compo.C25_olivine_snap"
   ],
   "note": ""
  },
  {
   "property": "C26",
   "status": "proved",
   "theorems": [
    "Magma.Support.Formula.C26_reads_formulas",
    "Magma.Support.Formula.C26_weight",
    "Magma.Support.Formula.C26_tables",
    "Magma.Support.Formula.C26_rejected_not_undone",
    "Magma.Support.Formula.C26_long_symbol"
   ],
   "note": ""
  },
  {
   "property": "C27",
   "status": "proved",
   "theorems": [
    "Magma.Support.MThread.C27_get",
    "Magma.Support.MThread.C27_isolated",
    "Magma.Support.MThread.C27_count",
    "Magma.Support.MThread.C27_destructors",
    "Magma.Support.MThread.C27_refused",
    "Magma.Support.MThread.C27_once",
    "Magma.Support.MThread.C27_accessor",
    "Magma.Support.MThread.C27_setter"
   ],
   "note": ""
  },
  {
   "property": "C28",
   "status": "proved",
   "theorems": [
    "Magma.Support.MThread.C28_create",
    "Magma.Support.MThread.C28_never_freed",
    "Magma.Support.MThread.C28_others"
   ],
   "note": ""
  },
  {
   "property": "C29",
   "status": "proved",
   "theorems": [
    "Magma.Num.FracApprox.C29_terminates",
    "Magma.Num.FracApprox.C29_deterministic",
    "Magma.Num.FracApprox.C29_accuracy",
    "Magma.Num.FracApprox.C29_exact",
    "Magma.Num.FracApprox.C29_documented_accuracy_missed"
   ],
   "note": ""
  },
  {
   "property": "C30",
   "status": "proved",
   "theorems": [
    "Magma.Iface.Suppress.C30_selection",
    "Magma.Iface.Suppress.C30_liquid_allowed",
    "Magma.Iface.Suppress.C30_unknown_key"
   ],
   "note": ""
  },
  {
   "property": "C31",
   "status": "proved",
   "theorems": [
    "Magma.Iface.Settings.C31_exclusive",
    "Magma.Iface.Settings.C31_history",
    "Magma.Iface.Settings.C31_references",
    "Magma.Iface.Settings.C31_reference_fixed"
   ],
   "note": ""
  },
  {
   "property": "C32",
   "status": "proved",
   "theorems": [
    "Magma.Iface.Composition.C32_normalized",
    "Magma.Iface.Composition.C32_idempotent",
    "Magma.Iface.Composition.C32_zero_sum"
   ],
   "note": ""
  },
  {
   "property": "C33",
   "status": "proved",
   "theorems": [
    "Magma.Iface.Composition.C33_bulk",
    "Magma.Iface.Composition.C33_liquid",
    "Magma.Iface.Composition.C33_mass",
    "Magma.Iface.Composition.C33_oxygen_last_only",
    "Magma.Iface.Composition.C33_oxygen_wrong",
    "Magma.Iface.Composition.C33_forgets"
   ],
   "note": ""
  },
  {
   "property": "C34",
   "status": "proved",
   "theorems": [
    "Magma.Iface.Run.C34_run",
    "Magma.Iface.Run.C34_history",
    "Magma.Iface.Run.C34_append_only",
    "Magma.Iface.Run.C34_failure_sticky",
    "Magma.Iface.Run.C34_failure",
    "Magma.Iface.Run.C34_stop_duplicates"
   ],
   "note": ""
  },
  {
   "property": "C35",
   "status": "proved",
   "theorems": [
    "Magma.Iface.Names.C35_results",
    "Magma.Iface.Names.C35_input",
    "Magma.Iface.Names.C35_terminates"
   ],
   "note": ""
  },
  {
   "property": "C36",
   "status": "proved",
   "theorems": [
    "Magma.Iface.Columns.C36_header_columns",
    "Magma.Iface.Columns.C36_under_label",
    "Magma.Iface.Columns.C36_distinct",
    "Magma.Iface.Columns.C36_liquid_mass_collides",
    "Magma.Iface.Columns.C36_liquid_mass_over_temperature",
    "Magma.Iface.Columns.C36_liquid_sheet",
    "Magma.Iface.Columns.C36_phases_sheet_clear",
    "Magma.Iface.Columns.C36_phases_sheet_overlaps",
    "Magma.Iface.Columns.C36_phases_sheet",
    "Magma.Iface.Columns.C36_phases_first_table",
    "Magma.Iface.Columns.C36_phase_column",
    "Magma.Iface.Columns.C36_fractionated_column",
    "Magma.Iface.Columns.C36_assimilated_column"
   ],
   "note": ""
  },
  {
   "property": "C37",
   "status": "proved",
   "theorems": [
    "Magma.Iface.Settings.C37_mass",
    "Magma.Iface.Settings.C37_pure_moles",
    "Magma.Iface.Settings.C37_solution",
    "Magma.Iface.Settings.C37_solution_total",
    "Magma.Iface.Settings.C37_mass_without_material",
    "Magma.Iface.Settings.C37_liquid_replaced",
    "Magma.Iface.Settings.C37_liquid_enthalpy_undetermined"
   ],
   "note": ""
  },
  {
   "property": "C38",
   "status": "proved",
   "theorems": [
    "Magma.Lib.Nodes.C38_isolated",
    "Magma.Lib.Nodes.C38_other_nodes",
    "Magma.Lib.Nodes.C38_order",
    "Magma.Lib.Nodes.C38_overflow"
   ],
   "note": ""
  },
  {
   "property": "C39",
   "status": "proved",
   "theorems": [
    "Magma.Iface.Composition.C39_update",
    "Magma.Iface.Composition.C39_balance",
    "Magma.Iface.Composition.C39_oxygen",
    "Magma.Iface.Composition.C39_same_composition",
    "Magma.Iface.Composition.C39_last_wins",
    "Magma.Iface.Composition.C39_negative_liquid"
   ],
   "note": ""
  },
  {
   "property": "C40",
   "status": "proved",
   "theorems": [
    "Magma.Lib.Strings.C40_path_meaning",
    "Magma.Lib.Strings.C40_switch_on",
    "Magma.Lib.Strings.C40_none_ignored",
    "Magma.Lib.Strings.C40_off",
    "Magma.Lib.Strings.C40_path",
    "Magma.Lib.Strings.C40_path_names",
    "Magma.Lib.Strings.C40_qfm_ignored",
    "Magma.Lib.Strings.C40_delta_ignored",
    "Magma.Lib.Strings.C40_suppress",
    "Magma.Lib.Strings.C40_suppress_none"
   ],
   "note": ""
  },
  {
   "property": "C41",
   "status": "proved",
   "theorems": [
    "Magma.Num.Chol.C41_factorisation",
    "Magma.Num.Chol.C41_solves",
    "Magma.Num.Chol.C41_positive_definite"
   ],
   "note": ""
  },
  {
   "property": "C42",
   "status": "proved",
   "theorems": [
    "Magma.Num.Householder.C42_orthogonal",
    "Magma.Num.Householder.C42_zeroes"
   ],
   "note": ""
  },
  {
   "property": "C43",
   "status": "proved",
   "theorems": [
    "Magma.Engine.C43_first_copy_lost",
    "Magma.Engine.C43_last_liquid"
   ],
   "note": ""
  },
  {
   "property": "C44",
   "status": "proved",
   "theorems": [
    "Magma.Engine.C44_phantom_liquid",
    "Magma.Engine.C44_phase_excluded"
   ],
   "note": ""
  },
  {
   "property": "C45",
   "status": "proved",
   "theorems": [
    "Magma.Engine.Auto.C45_nucleated_at_most_twice"
   ],
   "note": ""
  },
  {
   "property": "C46",
   "status": "proved",
   "theorems": [
    "Magma.Engine.Auto.C46_best_survives",
    "Magma.Engine.Auto.C46_falls_back"
   ],
   "note": ""
  },
  {
   "property": "C47",
   "status": "proved",
   "theorems": [
    "Magma.Num.Min1d.C47_step_feasible",
    "Magma.Num.Min1d.C47_terminates",
    "Magma.Num.Min1d.C47_energy_may_rise",
    "Magma.Num.Min1d.C47_stale_correction"
   ],
   "note": ""
  },
  {
   "property": "C48",
   "status": "proved",
   "theorems": [
    "Magma.Num.Constraint.C48_constraints_met",
    "Magma.Num.Constraint.C48_step_conserves",
    "Magma.Num.Constraint.C48_direction_conserves"
   ],
   "note": ""
  },
  {
   "property": "C49",
   "status": "proved",
   "theorems": [
    "Magma.Engine.Balance.C49_totals_consistent",
    "Magma.Engine.Balance.C49_step_conserves_oxides",
    "Magma.Engine.Balance.C49_applied_step_feasible",
    "Magma.Engine.Balance.C49_buffered_direction"
   ],
   "note": ""
  },
  {
   "property": "C50",
   "status": "proved",
   "theorems": [
    "Magma.Engine.Balance.C50_buffer_needs_both_iron_oxides"
   ],
   "note": ""
  },
  {
   "property": "C51",
   "status": "proved",
   "theorems": [
    "Magma.Thermo.Redox.C51_iron_conserved",
    "Magma.Thermo.Redox.C51_set_satisfies_relation",
    "Magma.Thermo.Redox.C51_read_satisfies_relation",
    "Magma.Thermo.Redox.C51_read_after_set",
    "Magma.Thermo.Redox.C51_set_after_read",
    "Magma.Thermo.Redox.C51_monotone",
    "Magma.Thermo.Redox.C51_forgets_speciation",
    "Magma.Thermo.Redox.C51_ironfree_reads_zero",
    "Magma.Thermo.Redox.C51_branches_join"
   ],
   "note": ""
  },
  {
   "property": "C53",
   "status": "proved",
   "theorems": [
    "Magma.Num.Modmrt.C53_never_singular",
    "Magma.Num.Modmrt.C53_step",
    "Magma.Num.Modmrt.C53_descent_direction",
    "Magma.Num.Modmrt.C53_descends",
    "Magma.Num.Modmrt.C53_success",
    "Magma.Num.Modmrt.C53_terminates",
    "Magma.Num.Modmrt.C53_stationary"
   ],
   "note": ""
  },
  {
   "property": "C54",
   "status": "proved",
   "theorems": [
    "Magma.Iface.Suppress.C54_restores",
    "Magma.Iface.Suppress.C54_only_fluid",
    "Magma.Iface.Suppress.C54_failure_keeps_suppression"
   ],
   "note": ""
  },
  {
   "property": "C55",
   "status": "proved",
   "theorems": [
    "Magma.Lib.Output.C55_system_is_sum",
    "Magma.Lib.Output.C55_first_seven",
    "Magma.Lib.Output.C55_derivatives_wrong",
    "Magma.Lib.Output.C55_oxides",
    "Magma.Lib.Output.C55_fractions",
    "Magma.Lib.Output.C55_density_solid",
    "Magma.Lib.Output.C55_density_liquid",
    "Magma.Lib.Output.C55_two_liquids",
    "Magma.Lib.Output.C55_index",
    "Magma.Lib.Output.C55_extensive"
   ],
   "note": ""
  },
  {
   "property": "C56",
   "status": "proved",
   "theorems": [
    "Magma.Lib.Modes.C56_isenthalpic",
    "Magma.Lib.Modes.C56_not_imposed",
    "Magma.Lib.Modes.C56_mode1_forgets",
    "Magma.Lib.Modes.C56_chain",
    "Magma.Lib.Modes.C56_volume_units",
    "Magma.Lib.Modes.C56_zero_restarts"
   ],
   "note": ""
  },
  {
   "property": "C57",
   "status": "proved",
   "theorems": [
    "Magma.Engine.Auto.C57_constraints_reimposed",
    "Magma.Engine.Auto.C57_minimisation_ends"
   ],
   "note": ""
  },
  {
   "property": "C58",
   "status": "proved",
   "theorems": [
    "Magma.Support.Tables.C58_elements_conserved",
    "Magma.Support.Tables.C58_weights",
    "Magma.Support.Tables.C58_rows_consistent",
    "Magma.Support.Tables.C58_inverse",
    "Magma.Support.Tables.C58_unique",
    "Magma.Support.Tables.C58_decimal",
    "Magma.Support.Tables.C58_layout"
   ],
   "note": ""
  },
  {
   "property": "C52",
   "status": "proved",
   "theorems": [
    "Magma.Thermo.Elements.C52_all_solutions",
    "Magma.Thermo.Elements.C52_recovered",
    "Magma.Thermo.Elements.C52_iron_oxides_recovered",
    "Magma.Thermo.Elements.C52_library_pyroxenes",
    "Magma.Thermo.Elements.C52_pyroxenes_recovered",
    "Magma.Thermo.Elements.C52_clinopyroxene_calcium_rich",
    "Magma.Thermo.Elements.C52_amphibole",
    "Magma.Thermo.Elements.C52_hornblende_wrong",
    "Magma.Thermo.Elements.C52_analysis_of_reported"
   ],
   "note": ""
  },
  {
   "property": "C59",
   "status": "proved",
   "theorems": [
    "Magma.Thermo.MuO2.C59_potential_is_RT_ln_fO2",
    "Magma.Thermo.MuO2.C59_potential_after_set",
    "Magma.Thermo.MuO2.C59_composition_derivatives",
    "Magma.Thermo.MuO2.C59_temperature_derivatives",
    "Magma.Thermo.MuO2.C59_pressure_derivatives",
    "Magma.Thermo.MuO2.C59_without_iron"
   ],
   "note": ""
  },
  {
   "property": "C60",
   "status": "proved",
   "theorems": [
    "Verif.Thermo.Ordering.Albite.C60_albite",
    "Verif.Thermo.Ordering.Albite.C60_named_solid_albite",
    "Verif.Thermo.StdState.C60_cpBerman",
    "Verif.Thermo.StdState.C60_cpSaxena",
    "Verif.Thermo.StdState.C60_eosBerman",
    "Verif.Thermo.StdState.C60_eosVinet",
    "Verif.Thermo.StdState.C60_vinet_solvable",
    "Verif.Thermo.StdState.C60_solid",
    "Verif.Thermo.StdState.C60_reference",
    "Verif.Thermo.StdState.C60_transition",
    "Verif.Thermo.StdState.C60_disorder",
    "Verif.Thermo.StdState.C60_named_solid",
    "Verif.Thermo.StdState.C60_oxygen",
    "Verif.Thermo.StdState.C60_sulfur"
   ],
   "note": ""
  },
  {
   "property": "C61",
   "status": "proved",
   "theorems": [
    "Verif.Thermo.Ordering.Amphibole.C61_amphibole_lowest",
    "Verif.Thermo.Ordering.Amphibole.C61_amphibole_transition",
    "Verif.Thermo.Ordering.Clinoamphibole.C61_clinoamphibole_exists",
    "Verif.Thermo.Ordering.Clinoamphibole.C61_clinoamphibole_unique",
    "Verif.Thermo.Ordering.Cummingtonite.C61_cummingtonite_exists",
    "Verif.Thermo.Ordering.Cummingtonite.C61_cummingtonite_unique",
    "Verif.Thermo.Ordering.Cummingtonite.C61_cummingtonite_feasible",
    "Verif.Thermo.Ordering.Cummingtonite.C61_newton_fixed",
    "Verif.Thermo.Ordering.Melilite.C61_melilite_bounds",
    "Verif.Thermo.Ordering.Melilite.C61_melilite_clamp",
    "Verif.Thermo.Ordering.Melilite.C61_melilite_stuck",
    "Verif.Thermo.Ordering.PureGehlenite.C61_pure_gehlenite_unique",
    "Verif.Thermo.Ordering.Melilite.C61_melilite_guess",
    "Verif.Thermo.Ordering.Melilite.C61_melilite_exists",
    "Verif.Thermo.Ordering.Melilite.C61_melilite_unique",
    "Verif.Thermo.Ordering.Nepheline.C61_nepheline_unique",
    "Verif.Thermo.Ordering.Olivine.C61_olivine_unique",
    "Verif.Thermo.Ordering.Olivine.C61_olivine_feasible",
    "Verif.Thermo.Ordering.Olivine.C61_olivine_guess",
    "Verif.Thermo.Ordering.Olivine.C61_olivine_stuck",
    "Verif.Thermo.Ordering.PurePseudobrookite.C61_pure_pseudobrookite_unique",
    "Verif.Thermo.Ordering.PureFerropseudobrookite.C61_pure_ferropseudobrookite_unique",
    "Verif.Thermo.Ordering.PureKarrooite.C61_pure_karrooite_unique",
    "Verif.Thermo.Ordering.OrthoOxide.C61_ortho_oxide_guess",
    "Verif.Thermo.Ordering.OrthoOxide.C61_ortho_oxide_exists",
    "Verif.Thermo.Ordering.OrthoOxide.C61_ortho_oxide_unique",
    "Verif.Thermo.Ordering.Orthoamphibole.C61_orthoamphibole_exists",
    "Verif.Thermo.Ordering.Orthoamphibole.C61_orthoamphibole_unique",
    "Verif.Thermo.Ordering.PureIlmenite.C61_pure_ilmenite_unique",
    "Verif.Thermo.Ordering.PureIlmenite.C61_pure_ilmenite_states",
    "Verif.Thermo.Ordering.PureIlmenite.C61_pure_ilmenite_disordered",
    "Verif.Thermo.Ordering.PureIlmenite.C61_pure_ilmenite_converges",
    "Verif.Thermo.Ordering.PureIlmenite.C61_pure_ilmenite_lost",
    "Verif.Thermo.Ordering.PureGeikielite.C61_pure_geikielite_unique",
    "Verif.Thermo.Ordering.PureGeikielite.C61_pure_geikielite_states",
    "Verif.Thermo.Ordering.PureGeikielite.C61_pure_geikielite_disordered",
    "Verif.Thermo.Ordering.PureGeikielite.C61_pure_geikielite_converges",
    "Verif.Thermo.Ordering.PureGeikielite.C61_pure_geikielite_lost",
    "Verif.Thermo.Ordering.PurePyrophanite.C61_pure_pyrophanite_unique",
    "Verif.Thermo.Ordering.PurePyrophanite.C61_pure_pyrophanite_states",
    "Verif.Thermo.Ordering.PurePyrophanite.C61_pure_pyrophanite_disordered",
    "Verif.Thermo.Ordering.PurePyrophanite.C61_pure_pyrophanite_converges",
    "Verif.Thermo.Ordering.PurePyrophanite.C61_pure_pyrophanite_lost",
    "Verif.Thermo.Ordering.Rhombohedral.C61_rhombohedral_guess",
    "Verif.Thermo.Ordering.Rhombohedral.C61_rhombohedral_exists",
    "Verif.Thermo.Ordering.Rhombohedral.C61_rhombohedral_mirror",
    "Verif.Thermo.Ordering.Rhombohedral.C61_rhombohedral_disorder",
    "Verif.Thermo.Ordering.PureHercynite.C61_pure_hercynite_unique",
    "Verif.Thermo.Ordering.PureMagnetite.C61_pure_magnetite_unique",
    "Verif.Thermo.Ordering.PureSpinel.C61_pure_spinel_unique",
    "Verif.Thermo.Ordering.Spinel.C61_spinel_exists",
    "Verif.Thermo.Ordering.Spinel.C61_spinel_unique",
    "Verif.Thermo.Ordering.Spinel.C61_spinel_guess",
    "Verif.Thermo.Ordering.Spinel.C61_spinel_feasible"
   ],
   "note": ""
  },
  {
   "property": "C62",
   "status": "proved",
   "theorems": [
    "Magma.Iface.SaveLoad.C62_no_liquid_assimilant",
    "Magma.Iface.SaveLoad.C62_first_label_only",
    "Magma.Iface.SaveLoad.C62_fayalite",
    "Magma.Iface.SaveLoad.C62_labels",
    "Magma.Iface.SaveLoad.C62_saved_inputs",
    "Magma.Iface.SaveLoad.C62_exact",
    "Magma.Iface.SaveLoad.C62_again",
    "Magma.Iface.SaveLoad.C62_preset_lost",
    "Magma.Iface.SaveLoad.C62_cold"
   ],
   "note": ""
  },
  {
   "property": "C63",
   "status": "proved",
   "theorems": [
    "Verif.Thermo.StdState.C63_volume_unique",
    "Verif.Thermo.StdState.C63_liquid_pMELTS",
    "Verif.Thermo.StdState.C63_no_pressure_term",
    "Verif.Thermo.StdState.C63_pressure_terms",
    "Verif.Thermo.StdState.C63_liquid",
    "Verif.Thermo.StdState.C63_caco3_enthalpy",
    "Verif.Thermo.StdState.C63_fusion",
    "Verif.Thermo.StdState.C63_silica_continuous"
   ],
   "note": ""
  },
  {
   "property": "C64",
   "status": "proved",
   "theorems": [
    "Verif.Thermo.StdState.C64_silica",
    "Verif.Thermo.StdState.C64_tridymite_jump",
    "Verif.Thermo.StdState.C64_enstatite",
    "Verif.Thermo.StdState.C64_enstatite_consistent",
    "Verif.Thermo.StdState.C64_metals"
   ],
   "note": ""
  },
  {
   "property": "C65",
   "status": "proved",
   "theorems": [
    "Magma.Thermo.Liquid34.C65_index",
    "Magma.Thermo.Liquid34.C65_thermodynamics",
    "Magma.Thermo.Liquid34.C65_gradient",
    "Magma.Thermo.Liquid34.C65_hessian",
    "Magma.Thermo.Liquid34.C65_euler",
    "Magma.Thermo.Liquid34.C65_potential",
    "Magma.Thermo.Liquid34.C65_activity",
    "Magma.Thermo.Liquid34.C65_activity_derivative"
   ],
   "note": ""
  },
  {
   "property": "C66",
   "status": "proved",
   "theorems": [
    "Verif.Thermo.LiquidCO2.C66_potential",
    "Verif.Thermo.LiquidCO2.C66_potential_unspeciated",
    "Verif.Thermo.LiquidCO2.C66_activity",
    "Verif.Thermo.LiquidCO2.C66_euler",
    "Verif.Thermo.LiquidCO2.C66_activity_derivative",
    "Verif.Thermo.LiquidCO2.C66_activity_derivative_unspeciated",
    "Verif.Thermo.LiquidCO2.C66_speciation",
    "Verif.Thermo.LiquidCO2.C66_consistent",
    "Verif.Thermo.LiquidCO2.C66_affinity",
    "Verif.Thermo.LiquidCO2.C66_mass_action",
    "Verif.Thermo.LiquidCO2.C66_equilibrium_exists",
    "Verif.Thermo.LiquidCO2.C66_equilibrium_unique",
    "Verif.Thermo.LiquidCO2.C66_initial_guess",
    "Verif.Thermo.LiquidCO2.C66_initial_guess_silica_poor",
    "Verif.Thermo.LiquidCO2.C66_order_feasible",
    "Verif.Thermo.LiquidCO2.C66_order_none",
    "Verif.Thermo.LiquidCO2.C66_order_accuracy",
    "Verif.Thermo.LiquidCO2.C66_speciated",
    "Verif.Thermo.LiquidCO2.C66_unspeciated",
    "Verif.Thermo.LiquidCO2.C66_regular_solution",
    "Verif.Thermo.LiquidCO2.C66_gibbs_of_mixing"
   ],
   "note": ""
  },
  {
   "property": "C67",
   "status": "proved",
   "theorems": [
    "Magma.Num.Reduced.C67_stationary",
    "Magma.Num.Reduced.C67_minimiser",
    "Magma.Num.Reduced.C67_last_multiplier",
    "Magma.Num.Reduced.C67_other_multipliers"
   ],
   "note": ""
  },
  {
   "property": "C68",
   "status": "proved",
   "theorems": [
    "Magma.Num.Hfti.C68_least_squares",
    "Magma.Num.Hfti.C68_solves",
    "Magma.Num.Hfti.C68_full_rank",
    "Magma.Num.Hfti.C68_newton_step"
   ],
   "note": ""
  },
  {
   "property": "C69",
   "status": "proved",
   "theorems": [
    "Magma.Engine.System.C69_phase",
    "Magma.Engine.System.C69_pure",
    "Magma.Engine.System.C69_gradient",
    "Magma.Engine.System.C69_gibbs_gradient",
    "Magma.Engine.System.C69_hessian",
    "Magma.Engine.System.C69_constraint_hessian",
    "Magma.Engine.System.C69_lagrangian",
    "Magma.Engine.System.C69_constraint_gradient",
    "Magma.Engine.System.C69_constraint_row",
    "Magma.Engine.System.C69_two_liquids",
    "Magma.Engine.System.C69_newton",
    "Magma.Engine.System.C69_equilibrium",
    "Magma.Engine.System.C69_constrained_newton"
   ],
   "note": ""
  },
  {
   "property": "C70",
   "status": "proved",
   "theorems": [
    "Magma.Engine.System.C70_liquid",
    "Magma.Engine.System.C70_buffer",
    "Magma.Engine.System.C70_gradient",
    "Magma.Engine.System.C70_hessian",
    "Magma.Engine.System.C70_hessian_gibbs",
    "Magma.Engine.System.C70_constraint_hessian",
    "Magma.Engine.System.C70_lagrangian",
    "Magma.Engine.System.C70_constraint_row",
    "Magma.Engine.System.C70_iron_rows",
    "Magma.Engine.System.C70_rows_overflow",
    "Magma.Engine.System.C70_rows_fit",
    "Magma.Engine.System.C70_newton",
    "Magma.Engine.System.C70_equilibrium",
    "Magma.Engine.System.C70_heat_gradient"
   ],
   "note": ""
  },
  {
   "property": "C71",
   "status": "proved",
   "theorems": [
    "Magma.Engine.Saturation.C71_guess_minimum",
    "Magma.Engine.Saturation.C71_supersaturated",
    "Magma.Engine.Saturation.C71_undersaturated",
    "Magma.Engine.Saturation.C71_ideal",
    "Magma.Engine.Saturation.C71_guess",
    "Magma.Engine.Saturation.C71_guess_unique",
    "Magma.Engine.Saturation.C71_affinity",
    "Magma.Engine.Saturation.C71_excluded"
   ],
   "note": ""
  },
  {
   "property": "C72",
   "status": "proved",
   "theorems": [
    "Magma.Engine.Saturation.C72_ideal",
    "Magma.Engine.Saturation.C72_single",
    "Magma.Engine.Saturation.C72_margules_consistent",
    "Magma.Engine.Saturation.C72_false_success",
    "Magma.Engine.Saturation.C72_reduce_total",
    "Magma.Engine.Saturation.C72_reduce_elements",
    "Magma.Engine.Saturation.C72_pyroxene",
    "Magma.Engine.Saturation.C72_unconverged",
    "Magma.Engine.Saturation.C72_pass",
    "Magma.Engine.Saturation.C72_run",
    "Magma.Engine.Saturation.C72_generic"
   ],
   "note": ""
  },
  {
   "property": "C73",
   "status": "proved",
   "theorems": [
    "Magma.Engine.Evaluate.C73_present",
    "Magma.Engine.Evaluate.C73_present_phases",
    "Magma.Engine.Evaluate.C73_pure",
    "Magma.Engine.Evaluate.C73_solution",
    "Magma.Engine.Evaluate.C73_reaction",
    "Magma.Engine.Evaluate.C73_reaction_solution",
    "Magma.Engine.Evaluate.C73_reaction_liquid",
    "Magma.Engine.Evaluate.C73_present_approx",
    "Magma.Engine.Evaluate.C73_least_squares",
    "Magma.Engine.Evaluate.C73_buffer",
    "Magma.Engine.Evaluate.C73_buffer_affinity",
    "Magma.Engine.Evaluate.C73_flag",
    "Magma.Engine.Evaluate.C73_nucleation"
   ],
   "note": ""
  },
  {
   "property": "C74",
   "status": "proved",
   "theorems": [
    "Magma.Engine.Unmix.C74_overdraw_liquid",
    "Magma.Engine.Unmix.C74_overdraw_solid",
    "Magma.Engine.Unmix.C74_below_tangent",
    "Magma.Engine.Unmix.C74_farthest",
    "Magma.Engine.Unmix.C74_convex",
    "Magma.Engine.Unmix.C74_lowers_energy",
    "Magma.Engine.Unmix.C74_excluded",
    "Magma.Engine.Unmix.C74_solids",
    "Magma.Engine.Unmix.C74_liquids"
   ],
   "note": ""
  },
  {
   "property": "C75",
   "status": "proved",
   "theorems": [
    "Magma.Engine.SubO2.C75_mineral",
    "Magma.Engine.SubO2.C75_fixed",
    "Magma.Engine.SubO2.C75_value",
    "Magma.Engine.SubO2.C75_equilibrium",
    "Magma.Engine.SubO2.C75_dt",
    "Magma.Engine.SubO2.C75_dp",
    "Magma.Engine.SubO2.C75_dm",
    "Magma.Engine.SubO2.C75_d2t2",
    "Magma.Engine.SubO2.C75_d2p2",
    "Magma.Engine.SubO2.C75_d2tp",
    "Magma.Engine.SubO2.C75_d2mt",
    "Magma.Engine.SubO2.C75_d2mp",
    "Magma.Engine.SubO2.C75_d2m",
    "Magma.Engine.SubO2.C75_reaction",
    "Magma.Engine.SubO2.C75_memory",
    "Magma.Engine.SubO2.C75_columns",
    "Magma.Engine.SubO2.C75_buffer",
    "Magma.Engine.SubO2.C75_halving_ends",
    "Magma.Engine.SubO2.C75_pure_never",
    "Magma.Engine.SubO2.C75_unbalanced"
   ],
   "note": ""
  },
  {
   "property": "C76",
   "status": "proved",
   "theorems": [
    "Magma.Engine.System.C76_buffered_oxides",
    "Magma.Engine.System.C76_buffered_value",
    "Magma.Engine.System.C76_buffered_ironfree",
    "Magma.Engine.System.C76_subsolidus_stale",
    "Magma.Engine.System.C76_buffered_slope",
    "Magma.Engine.System.C76_buffered_descent",
    "Magma.Engine.System.C76_slope",
    "Magma.Engine.System.C76_descent",
    "Magma.Engine.System.C76_constrained_slope",
    "Magma.Engine.System.C76_constrained_descent",
    "Magma.Engine.System.C76_joint",
    "Magma.Engine.System.C76_unconverged",
    "Magma.Engine.System.C76_gibbs_value",
    "Magma.Engine.System.C76_inner_converges",
    "Magma.Engine.System.C76_constrained_value"
   ],
   "note": ""
  },
  {
   "property": "C77",
   "status": "proved",
   "theorems": [
    "Verif.Num.PackedLU.C77_regular",
    "Verif.Num.PackedLU.C77_pair",
    "Verif.Num.PackedLU.C77_pair_exchanged",
    "Verif.Num.PackedLU.C77_first_missing",
    "Verif.Num.PackedLU.C77_zero",
    "Verif.Num.PackedLU.C77_lone",
    "Verif.Num.PackedLU.C77_lone_many",
    "Verif.Num.PackedLU.C77_two_of_four",
    "Verif.Thermo.Ordering.C77_order"
   ],
   "note": ""
  },
  {
   "property": "C78",
   "status": "proved",
   "theorems": [
    "Verif.Thermo.Ordering.Melilite.C78_melilite_gehlenite",
    "Verif.Thermo.Ordering.Melilite.C78_melilite_akermanite",
    "Verif.Thermo.Ordering.Melilite.C78_melilite_iron_akermanite",
    "Verif.Thermo.Ordering.Melilite.C78_melilite_soda",
    "Verif.Thermo.Ordering.OrthoOxide.C78_ortho_oxide_pseudobrookite",
    "Verif.Thermo.Ordering.OrthoOxide.C78_ortho_oxide_ferropseudobrookite",
    "Verif.Thermo.Ordering.OrthoOxide.C78_ortho_oxide_karrooite",
    "Verif.Thermo.Ordering.OrthoOxide.C78_ortho_oxide_jump",
    "Verif.Thermo.Ordering.Rhombohedral.C78_rhombohedral_ilmenite",
    "Verif.Thermo.Ordering.Rhombohedral.C78_rhombohedral_geikielite",
    "Verif.Thermo.Ordering.Rhombohedral.C78_rhombohedral_pyrophanite",
    "Verif.Thermo.Ordering.Rhombohedral.C78_rhombohedral_hematite",
    "Verif.Thermo.Ordering.Spinel.C78_spinel_hercynite",
    "Verif.Thermo.Ordering.Spinel.C78_spinel_magnetite",
    "Verif.Thermo.Ordering.Spinel.C78_spinel_spinel",
    "Verif.Thermo.Ordering.Spinel.C78_spinel_chromite",
    "Verif.Thermo.Ordering.Spinel.C78_spinel_ulvospinel"
   ],
   "note": ""
  },
  {
   "property": "C79",
   "status": "proved",
   "theorems": [
    "Verif.Thermo.Water.C79_loop_pressure",
    "Verif.Thermo.Water.C79_loop_hot",
    "Verif.Thermo.Water.C79_loop_cold",
    "Verif.Thermo.Water.C79_newton",
    "Verif.Thermo.Water.C79_search_ends",
    "Verif.Thermo.Water.C79_search_hot",
    "Verif.Thermo.Water.C79_search_fixed",
    "Verif.Thermo.Water.C79_water_low",
    "Verif.Thermo.Water.C79_water_high",
    "Verif.Thermo.Water.C79_enthalpy_error",
    "Verif.Thermo.Water.C79_density_exists",
    "Verif.Thermo.Water.C79_gas",
    "Verif.Thermo.Water.C79_instance",
    "Verif.Thermo.Water.C79_steam",
    "Verif.Thermo.Water.C79_one_bar",
    "Verif.Thermo.Water.C79_dissolved",
    "Verif.Thermo.Water.C79_ten_kbar"
   ],
   "note": ""
  },
  {
   "property": "C80",
   "status": "proved",
   "theorems": [
    "Verif.Thermo.Fluid.C80_volume_exists",
    "Verif.Thermo.Fluid.C80_ideal",
    "Verif.Thermo.Fluid.C80_fugacity",
    "Verif.Thermo.Fluid.C80_search_dilute",
    "Verif.Thermo.Fluid.C80_one_bar",
    "Verif.Thermo.Fluid.C80_dissolved",
    "Verif.Thermo.Fluid.C80_above",
    "Verif.Thermo.Fluid.C80_pure",
    "Verif.Thermo.Fluid.C80_volume_error",
    "Verif.Thermo.Fluid.C80_dcpdt",
    "Verif.Thermo.Fluid.C80_joint",
    "Verif.Thermo.Fluid.C80_search",
    "Verif.Thermo.Fluid.C80_search_ends"
   ],
   "note": ""
  },
  {
   "property": "C81",
   "status": "proved",
   "theorems": [
    "Verif.Thermo.Fluid.C81_pure",
    "Verif.Thermo.Fluid.C81_ends",
    "Verif.Thermo.Fluid.C81_joint",
    "Verif.Thermo.Fluid.C81_volume_exists",
    "Verif.Thermo.Fluid.C81_states",
    "Verif.Thermo.Fluid.C81_states_above",
    "Verif.Thermo.Fluid.C81_states_hot",
    "Verif.Thermo.Fluid.C81_one_energy",
    "Verif.Thermo.Fluid.C81_amounts",
    "Verif.Thermo.Fluid.C81_slope",
    "Verif.Thermo.Fluid.C81_gibbs_duhem",
    "Verif.Thermo.Fluid.C81_curvature",
    "Verif.Thermo.Fluid.C81_curvature_error",
    "Verif.Thermo.Fluid.C81_volume",
    "Verif.Thermo.Fluid.C81_volume_slopes",
    "Verif.Thermo.Fluid.C81_activity",
    "Verif.Thermo.Fluid.C81_activity_slope"
   ],
   "note": ""
  },
  {
   "property": "C82",
   "status": "proved",
   "theorems": [
    "Verif.Thermo.Fluid.C82_entropy",
    "Verif.Thermo.Fluid.C82_enthalpy",
    "Verif.Thermo.Fluid.C82_gibbs_helmholtz",
    "Verif.Thermo.Fluid.C82_entropy_slope",
    "Verif.Thermo.Fluid.C82_expansion",
    "Verif.Thermo.Fluid.C82_volume_exists",
    "Verif.Thermo.Fluid.C82_states",
    "Verif.Thermo.Fluid.C82_states_hot",
    "Verif.Thermo.Fluid.C82_corner"
   ],
   "note": ""
  },
  {
   "property": "C83",
   "status": "proved",
   "theorems": [
    "Verif.Thermo.Fluid.C83_heat_capacity",
    "Verif.Thermo.Fluid.C83_enthalpy",
    "Verif.Thermo.Fluid.C83_heat_capacity_slope",
    "Verif.Thermo.Fluid.C83_volume",
    "Verif.Thermo.Fluid.C83_volume_slope_temperature",
    "Verif.Thermo.Fluid.C83_volume_pressure"
   ],
   "note": ""
  },
  {
   "property": "C84",
   "status": "proved",
   "theorems": [
    "Verif.Thermo.Fluid.C84_search",
    "Verif.Thermo.Fluid.C84_search_dilute",
    "Verif.Thermo.Fluid.C84_pure",
    "Verif.Thermo.Fluid.C84_states"
   ],
   "note": ""
  },
  {
   "property": "C85",
   "status": "proved",
   "theorems": [
    "Magma.Thermo.Mixing.C85_spinodal",
    "Magma.Thermo.Mixing.C85_biotite",
    "Magma.Thermo.Mixing.C85_olivineSx",
    "Magma.Thermo.Mixing.C85_wadsleyite",
    "Magma.Thermo.Mixing.C85_ringwoodite",
    "Magma.Thermo.Mixing.C85_wustite",
    "Magma.Thermo.Mixing.C85_perovskite",
    "Magma.Thermo.Mixing.C85_ilmenite",
    "Magma.Thermo.Mixing.C85_alloySolid",
    "Magma.Thermo.Mixing.C85_alloyLiquid",
    "Magma.Thermo.Mixing.C85_target",
    "Magma.Thermo.Mixing.C85_feldspar_gap",
    "Magma.Thermo.Mixing.C85_feldspar_gap_anorthite",
    "Magma.Thermo.Mixing.C85_feldspar",
    "Magma.Thermo.Mixing.C85_garnet",
    "Magma.Thermo.Mixing.C85_garnet_gap",
    "Magma.Thermo.Mixing.C85_hornblende",
    "Magma.Thermo.Mixing.C85_hornblende_gap",
    "Magma.Thermo.Mixing.C85_kalsilite_gap",
    "Magma.Thermo.Mixing.C85_kalsilite",
    "Magma.Thermo.Mixing.C85_leucite",
    "Magma.Thermo.Mixing.C85_leucite_gap"
   ],
   "note": ""
  }
 ]
}