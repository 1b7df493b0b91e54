{
 "claims": [
  {
   "property": "C01",
   "status": "proved",
   "theorems": [
    "Verif.Params.C01_precedence"
   ],
   "note": "For every registration history, every list of distinct well-formed options and every well-formed parameter file."
  },
  {
   "property": "C02",
   "status": "proved",
   "theorems": [
    "Verif.Params.C02_register_accepted_iff",
    "Verif.Params.C02_setDefault_accepted_iff",
    "Verif.Params.C02_hide_accepted_iff",
    "Verif.Params.C02_endRegistration_accepted_iff",
    "Verif.Params.C02_get_after_history",
    "Verif.Params.C02_rejected_call_has_no_effect"
   ],
   "note": "Acceptance of each call as a function of the history alone; rejected calls have no observable effect."
  },
  {
   "property": "C03",
   "status": "proved",
   "theorems": [
    "Verif.Params.C03_help_option_round_trip"
   ],
   "note": "For all CamelCase names (upper-case first letter), all values."
  },
  {
   "property": "C04",
   "status": "proved",
   "theorems": [
    "Verif.Params.C04_command_line_iff",
    "Verif.Params.C04_command_line_values"
   ],
   "note": "Exact characterisation of accepted command lines without positional arguments."
  },
  {
   "property": "C05",
   "status": "proved",
   "theorems": [
    "Verif.Params.C05_quoted_round_trip",
    "Verif.Params.C05_unterminated_is_error"
   ],
   "note": "Round trip for all texts; an unterminated text is an error."
  },
  {
   "property": "C06",
   "status": "partial",
   "theorems": [
    "Verif.Params.C06_repeated_name_rejected",
    "Verif.Params.C06_wellformed_line_accepted_partial",
    "Verif.Params.C06_blank_and_comment_ignored",
    "Verif.Params.C06_key_only_rejected_partial",
    "Verif.Params.C06_malformed_line_rejected_violated"
   ],
   "note": "The full property is false of the code (exceptions constructed but not thrown): negation proved in C06_malformed_line_rejected_violated. Well-formed lines and key-only lines are handled as stated."
  },
  {
   "property": "C07",
   "status": "partial",
   "theorems": [
    "Verif.Params.C07_wrapping_keeps_text_partial",
    "Verif.Params.C07_wrapping_keeps_text_violated"
   ],
   "note": "The full property is false (negation proved); proved for texts whose line breaks are followed by a blank two positions later."
  },
  {
   "property": "C08",
   "status": "partial",
   "theorems": [
    "Verif.Params.C08_help_never_runs_violated",
    "Verif.Params.C08_help_partial",
    "Verif.Params.C08_failed_setup_never_runs"
   ],
   "note": "The full property is false (help has status -1, start() tests 1 and 2): negation proved; partial theorem for problems without usable default end time / step size."
  },
  {
   "property": "C09",
   "status": "partial",
   "theorems": [
    "Verif.Newton.C09_error_is_exact",
    "Verif.Newton.C09_success_partial",
    "Verif.Newton.C09_success_small_residual_partial",
    "Verif.Newton.C09_returned_solution_violated"
   ],
   "note": "A converged outcome has an accepted error except in one case: if the initial solution already meets the tolerance, one update without a check is made. Negation of the full property proved (exact Newton on x^2+1/10)."
  },
  {
   "property": "C10",
   "status": "proved",
   "theorems": [
    "Verif.Newton.C10_terminates",
    "Verif.Newton.C10_terminates_always",
    "Verif.Newton.C10_result_unique",
    "Verif.Newton.C10_zero_tolerance_diverges"
   ],
   "note": "For every problem and every number of iterations allowed."
  },
  {
   "property": "C11",
   "status": "partial",
   "theorems": [
    "Verif.Cache.C11_failed_partial",
    "Verif.Cache.C11_other_exceptions_violated",
    "Verif.Newton.C11_handled",
    "Verif.Newton.C11_begin"
   ],
   "note": "Failures which the Newton method handles leave no trace; other exceptions leave the last iterate in place (negation proved)."
  },
  {
   "property": "C12",
   "status": "proved",
   "theorems": [
    "Verif.Newton.C12_auxiliary_updated",
    "Verif.Newton.C12_success_keeps_constraints",
    "Verif.Newton.C12_update_keeps_constraints",
    "Verif.Newton.C12_constraints_do_not_count",
    "Verif.Newton.C12_unconstrained_updated",
    "Verif.Newton.C12_linear_solve_zero_update"
   ],
   "note": ""
  },
  {
   "property": "C13",
   "status": "partial",
   "theorems": [
    "Verif.Newton.C13_undefined_never_succeeds_partial",
    "Verif.Newton.C13_success_last_entry_defined_partial",
    "Verif.Newton.C13_undefined_update_rejected",
    "Verif.Newton.C13_last_entry_nan_partial",
    "Verif.Newton.C13_nan_accepted_violated"
   ],
   "note": "std::max discards a NaN unless it is the last entry: negation of the full property proved, partial theorem for the last entry."
  },
  {
   "property": "C14",
   "status": "proved",
   "theorems": [
    "Verif.Newton.C14_at_least_minimum",
    "Verif.Newton.C14_reduction",
    "Verif.Newton.C14_increase",
    "Verif.Newton.C14_monotone",
    "Verif.Newton.C14_after_failure"
   ],
   "note": ""
  },
  {
   "property": "C15",
   "status": "proved",
   "theorems": [
    "Verif.TimeInt.C15_attempts",
    "Verif.TimeInt.C15_retries_at_least_minimum",
    "Verif.TimeInt.C15_result_is_last_attempt"
   ],
   "note": "Without constraints, which also change the solution of the previous time level: see C188."
  },
  {
   "property": "C16",
   "status": "partial",
   "theorems": [
    "Verif.TimeInt.C16_accepted_solution_is_old",
    "Verif.TimeInt.C16_continue_with_iterate_violated"
   ],
   "note": "The accepted solution is always the old one, not the last iterate: the documented behaviour is refuted, the actual one proved."
  },
  {
   "property": "C17",
   "status": "partial",
   "theorems": [
    "Verif.TimeLoop.C17_clock",
    "Verif.TimeLoop.C17_monotone",
    "Verif.TimeLoop.C17_integrated_size_partial",
    "Verif.TimeLoop.C17_integrated_size_violated"
   ],
   "note": "The clock is the sum of the completed steps and never goes back; that the advanced size is the integrated one is false if endTimeStep or the output change the step size (negation proved)."
  },
  {
   "property": "C18",
   "status": "proved",
   "theorems": [
    "Verif.TimeLoop.C18_bracketed",
    "Verif.TimeLoop.C18_last_episode_may_stay_open"
   ],
   "note": ""
  },
  {
   "property": "C19",
   "status": "partial",
   "theorems": [
    "Verif.TimeLoop.C19_no_crossing_partial",
    "Verif.TimeLoop.C19_positive",
    "Verif.TimeLoop.C19_first_step_of_episode_violated"
   ],
   "note": "True of all steps but the first of an episode, which is not limited: negation proved."
  },
  {
   "property": "C20",
   "status": "proved",
   "theorems": [
    "Verif.Numbers.C20_twenty_digits_suffice",
    "Verif.Restart.C20_clock_round_trip",
    "Verif.Restart.C20_queries_agree"
   ],
   "note": ""
  },
  {
   "property": "C21",
   "status": "partial",
   "theorems": [
    "Verif.Numbers.C21_distinct_names_violated",
    "Verif.Numbers.C21_names_partial",
    "Verif.Numbers.C21_short_times_partial"
   ],
   "note": "File names use six significant digits: negation proved, partial theorem for times which six digits determine."
  },
  {
   "property": "C22",
   "status": "partial",
   "theorems": [
    "Verif.ForcedSteps.C22_blanks",
    "Verif.ForcedSteps.C22_reads_numbers_partial",
    "Verif.ForcedSteps.C22_trailing_blank_violated",
    "Verif.ForcedSteps.C22_missing_file_diverges_violated",
    "Verif.ForcedSteps.C22_malformed_diverges_violated",
    "Verif.ForcedSteps.C22_malformed_end_violated",
    "Verif.ForcedSteps.C22_empty_file_violated"
   ],
   "note": "Files of numbers separated by blanks are read exactly, and C22_blanks says what blanks are. False of all others: reading does not terminate for missing files and for malformed ones, blanks at the end and empty files give an uninitialised time step, characters at the end which are no number give a step of size zero: five negations proved."
  },
  {
   "property": "C23",
   "status": "proved",
   "theorems": [
    "Verif.Tasklets.C23_dispatched",
    "Verif.Tasklets.C23_barrier",
    "Verif.Tasklets.C23_never_more",
    "Verif.Tasklets.C23_sync"
   ],
   "note": ""
  },
  {
   "property": "C24",
   "status": "proved",
   "theorems": [
    "Verif.Tasklets.C24_order"
   ],
   "note": ""
  },
  {
   "property": "C25",
   "status": "proved",
   "theorems": [
    "Verif.Tasklets.C25_failure_flag",
    "Verif.Tasklets.C25_failure_stays",
    "Verif.Tasklets.C25_worker_continues",
    "Verif.Tasklets.C25_sync"
   ],
   "note": ""
  },
  {
   "property": "C26",
   "status": "proved",
   "theorems": [
    "Verif.Tasklets.C26_not_early",
    "Verif.Tasklets.C26_no_deadlock",
    "Verif.Tasklets.C26_schedules_end",
    "Verif.Tasklets.C26_completes"
   ],
   "note": ""
  },
  {
   "property": "C27",
   "status": "proved",
   "theorems": [
    "Verif.EntityIter.C27_handed_out_once_in_order",
    "Verif.EntityIter.C27_nothing_after_abort",
    "Verif.EntityIter.C27_loop_order",
    "Verif.EntityIter.C27_at_most_once",
    "Verif.EntityIter.C27_complete",
    "Verif.EntityIter.C27_exceptions_are_not_lost",
    "Verif.EntityIter.C27_loop_abort",
    "Verif.EntityIter.C27_loop_ends"
   ],
   "note": ""
  },
  {
   "property": "C28",
   "status": "proved",
   "theorems": [
    "Verif.GridComm.C28_sum",
    "Verif.GridComm.C28_max",
    "Verif.GridComm.C28_min",
    "Verif.GridComm.C28_ghostSync"
   ],
   "note": "For every interface with the documented guarantees of the grid (the same lists of entities on both sides; all gathering before all scattering)."
  },
  {
   "property": "C29",
   "status": "partial",
   "theorems": [
    "Verif.Timer.C29_accounting_partial",
    "Verif.Timer.C29_guard",
    "Verif.Timer.C29_stop_value",
    "Verif.Timer.C29_monotone",
    "Verif.Timer.C29_restart_violated"
   ],
   "note": "Restarting a running timer loses the running interval (negation proved); all other histories proved."
  },
  {
   "property": "C30",
   "status": "partial",
   "theorems": [
    "Verif.Guard.C30_exactly_once_partial",
    "Verif.Guard.C30_never_early_partial",
    "Verif.Guard.C30_moved_from_violated"
   ],
   "note": "Re-enabling a moved-from guard makes its action run twice (negation proved); all other histories proved."
  },
  {
   "property": "C31",
   "status": "partial",
   "theorems": [
    "Verif.Cache.C31_current_level_partial",
    "Verif.Cache.C31_previous_level_partial",
    "Verif.Cache.C31_constraints_violated",
    "Verif.Cache.C31_foreign_residual_violated",
    "Verif.Cache.C31_after_foreign_residual_violated",
    "Verif.Cache.C31_recycled_storage_violated"
   ],
   "note": "Proved for all usual histories and, for the previous level, without recycled storage; constraints, foreign residuals and recycled storage give stale quantities (four negations proved)."
  },
  {
   "property": "C32",
   "status": "partial",
   "theorems": [
    "Verif.Cache.C32_advance_partial",
    "Verif.Cache.C32_longer_history_violated"
   ],
   "note": "Proved for histories of two time levels; longer histories are not shifted (negation proved)."
  },
  {
   "property": "C33",
   "status": "proved",
   "theorems": [
    "Verif.AuxModules.C33_disjoint",
    "Verif.AuxModules.C33_range"
   ],
   "note": ""
  },
  {
   "property": "C34",
   "status": "proved",
   "theorems": [
    "Verif.FvLin.C34_cell_centred",
    "Verif.FvLin.C34_vertex_centred",
    "Verif.Tpfa.C34_tpfa"
   ],
   "note": ""
  },
  {
   "property": "C35",
   "status": "partial",
   "theorems": [
    "Verif.Storage.C35_global_storage_partial",
    "Verif.Storage.C35_recycled_storage_violated",
    "Verif.Storage.C35_local_storage_violated"
   ],
   "note": "Proved for all switches except cached and recycled storage at the previous level, where it is false (negation proved), as it is for evalStorage of cached contexts."
  },
  {
   "property": "C36",
   "status": "partial",
   "theorems": [
    "Verif.FvLin.C36_general_partial",
    "Verif.FvLin.C36_auxiliary_violated",
    "Verif.Tpfa.C36_tpfa_partial"
   ],
   "note": "Proved for the two-point flux linearizer and for the rows of the grid in the general one; rows of auxiliary equations accumulate (negation proved)."
  },
  {
   "property": "C37",
   "status": "proved",
   "theorems": [
    "Verif.FvLin.C37_general",
    "Verif.FvLin.C37_vertex_centred",
    "Verif.Tpfa.C37_jacobian"
   ],
   "note": ""
  },
  {
   "property": "C38",
   "status": "proved",
   "theorems": [
    "Verif.Tpfa.C38_schedule_independent",
    "Verif.Tpfa.C38_tpfa"
   ],
   "note": ""
  },
  {
   "property": "C39",
   "status": "partial",
   "theorems": [
    "Verif.Tpfa.C39_inside",
    "Verif.Tpfa.C39_outside_partial",
    "Verif.Tpfa.C39_boundary_violated",
    "Verif.Tpfa.C39_rows_violated"
   ],
   "note": "The cells of the subdomain get what the full linearization gives, others keep theirs unless they have boundary conditions or are neighbours (rows of the matrix): two negations proved."
  },
  {
   "property": "C40",
   "status": "partial",
   "theorems": [
    "Verif.FvLin.C40_general",
    "Verif.TpfaLife.C40_tpfa_violated",
    "Verif.TpfaLife.C40_tpfa_partial"
   ],
   "note": "Proved for the general linearizer; with the two-point flux linearizer every linearization after an erasure uses a null pointer (negation proved for all histories)."
  },
  {
   "property": "C41",
   "status": "partial",
   "theorems": [
    "Verif.TpfaLife.C41_current_partial",
    "Verif.TpfaLife.C41_removed_violated",
    "Verif.TpfaLife.C41_late_violated"
   ],
   "note": "Proved for faces which have a condition now; removed conditions stay in use and late ones are ignored: two negations proved."
  },
  {
   "property": "C42",
   "status": "proved",
   "theorems": [
    "Verif.ElemCtx.C42_affine",
    "Verif.ElemCtx.C42_quadratic_central",
    "Verif.ElemCtx.C42_quadratic_one_sided",
    "Verif.ElemCtx.C42_restored"
   ],
   "note": ""
  },
  {
   "property": "C43",
   "status": "partial",
   "theorems": [
    "Verif.Gradient.C43_middle_partial",
    "Verif.Gradient.C43_between_partial",
    "Verif.Gradient.C43_violated"
   ],
   "note": "Exact in the middle only; everywhere else every non-constant linear quantity gets a wrong value (negation proved in general)."
  },
  {
   "property": "C44",
   "status": "partial",
   "theorems": [
    "Verif.ElemCtx.C44_one_dof_partial",
    "Verif.ElemCtx.C44_intensive_quantities_partial",
    "Verif.ElemCtx.C44_two_dofs_violated"
   ],
   "note": "Proved for derivatives with respect to one degree of freedom, and for the intensive quantities always; false of primary variables with two (negation proved)."
  },
  {
   "property": "C45",
   "status": "proved",
   "theorems": [
    "Verif.Inverse.C45_inverse",
    "Verif.Inverse.C45_threshold",
    "Verif.Inverse.C45_invert"
   ],
   "note": "Over every ordered field (exact arithmetic)."
  },
  {
   "property": "C46",
   "status": "proved",
   "theorems": [
    "Verif.Krylov.C46_success",
    "Verif.Krylov.C46_combined",
    "Verif.Krylov.C46_reduction",
    "Verif.Krylov.C46_iterations"
   ],
   "note": "For every operator and preconditioner in exact arithmetic."
  },
  {
   "property": "C47",
   "status": "partial",
   "theorems": [
    "Verif.Criteria.C47_reduction",
    "Verif.Criteria.C47_combined",
    "Verif.Criteria.C47_fix_point",
    "Verif.Criteria.C47_weighted",
    "Verif.Criteria.C47_weighted_failed",
    "Verif.Criteria.C47_weighted_partial",
    "Verif.Criteria.C47_weighted_violated"
   ],
   "note": "Proved for the reduction, combined and fix-point criteria; the weighted one reports failure together with convergence (negation proved)."
  },
  {
   "property": "C48",
   "status": "partial",
   "theorems": [
    "Verif.GlobalIdx.C48_numbered",
    "Verif.GlobalIdx.C48_terminates",
    "Verif.GlobalIdx.C48_empty_overlap_violated"
   ],
   "note": "Proved for overlap sizes of at least one and for border lists with distance zero; false of overlap size zero with element border lists (negation proved)."
  },
  {
   "property": "C49",
   "status": "proved",
   "theorems": [
    "Verif.ScalarProduct.C49_dot"
   ],
   "note": ""
  },
  {
   "property": "C50",
   "status": "proved",
   "theorems": [
    "Verif.Sync.C50_round_trip",
    "Verif.Sync.C50_own_rows",
    "Verif.Sync.C50_border_sums",
    "Verif.Sync.C50_sync",
    "Verif.Sync.C50_consistent",
    "Verif.Sync.C50_sync_again",
    "Verif.Sync.C50_assignAddBorder",
    "Verif.Sync.C50_terminates"
   ],
   "note": "For overlaps which fit together on all processes (Coherent); the construction of the overlap is not part of this theorem."
  },
  {
   "property": "C51",
   "status": "partial",
   "theorems": [
    "Verif.Agree.C51_agreement_partial",
    "Verif.Agree.C51_isolated_violated"
   ],
   "note": "Proved if every process has peers; a process without peers skips the collective operation (negation proved)."
  },
  {
   "property": "C52",
   "status": "partial",
   "theorems": [
    "Verif.BlackOil.C52_temperature",
    "Verif.BlackOil.C52_solid_salt",
    "Verif.BlackOil.C52_saturations_partial",
    "Verif.BlackOil.C52_pressure",
    "Verif.BlackOil.C52_pressure_positive",
    "Verif.BlackOil.C52_pressure_unswitched",
    "Verif.BlackOil.C52_water_factor",
    "Verif.BlackOil.C52_gas_factor",
    "Verif.BlackOil.C52_solvent_factor",
    "Verif.BlackOil.C52_bounds",
    "Verif.BlackOil.C52_salt",
    "Verif.BlackOil.C52_solvent_bounds",
    "Verif.BlackOil.C52_solvent_violated"
   ],
   "note": "Every update vector, state, fluid, capillary pressure law and parameter within the usual ranges: limiting, switching and projecting together change no phase saturation by more than the maximum in models without solvent (C52_saturations_partial); pressure, factors and all bounded variables for every model.  With the solvent module the limit is violated (C52_solvent_violated): the solvent saturation is put back to zero after limiting."
  },
  {
   "property": "C53",
   "status": "proved",
   "theorems": [
    "Verif.BlackOil.C53_admissible",
    "Verif.BlackOil.C53_unchanged",
    "Verif.BlackOil.C53_idempotent"
   ],
   "note": "For every layout without collisions and every value; not both the water and the gas variable disabled (then nothing is done)."
  },
  {
   "property": "C54",
   "status": "partial",
   "theorems": [
    "Verif.BlackOil.C54_report_partial",
    "Verif.BlackOil.C54_report_twophase_violated",
    "Verif.BlackOil.C54_report_brine_violated",
    "Verif.BlackOil.C54_report_solvent_violated",
    "Verif.BlackOil.C54_compatible_partial",
    "Verif.BlackOil.C54_compatible_violated",
    "Verif.BlackOil.C54_gas_stays_partial",
    "Verif.BlackOil.C54_water_stays_partial",
    "Verif.BlackOil.C54_stays_violated",
    "Verif.BlackOil.C54_salt_stays"
   ],
   "note": "reports a change exactly if the water or gas meaning changed (three-phase cells or cells not filled with water), compatibility kept unless water-filled, gas and salt switches never undone, water switches not undone unless gas or salt switch at the same time; violated: two-phase water-filled cells always report, salt and solvent switches are not reported, water-filled cell leaves (Sg,Pg), simultaneous water and gas switch is undone by the next call"
  },
  {
   "property": "C55",
   "status": "partial",
   "theorems": [
    "Verif.BlackOil.C55_threePhase_partial",
    "Verif.BlackOil.C55_twoPhase_partial",
    "Verif.BlackOil.C55_onePhase_partial",
    "Verif.BlackOil.C55_polymer_micp_violated",
    "Verif.BlackOil.C55_extbo_polymer_violated",
    "Verif.BlackOil.C55_extbo_brine_violated",
    "Verif.BlackOil.C55_extbo_foam_violated",
    "Verif.BlackOil.C55_components"
   ],
   "note": "Holds for all combinations without extbo and without polymer and MICP together; the others collide (C55_*_violated)."
  },
  {
   "property": "C56",
   "status": "partial",
   "theorems": [
    "Verif.BlackOil.C56_reported",
    "Verif.BlackOil.C56_partial",
    "Verif.BlackOil.C56_violated",
    "Verif.BlackOil.C56_zero"
   ],
   "note": "exact formula: the reported number is the sum over the processes times the number of processes; right on one process; violated on two or more whenever something is switched; zero exactly if nothing is switched"
  },
  {
   "property": "C57",
   "status": "partial",
   "theorems": [
    "Verif.Pvs.C57_saturations",
    "Verif.Pvs.C57_compositions",
    "Verif.Pvs.C57_composition_single",
    "Verif.Pvs.C57_update_presence",
    "Verif.Pvs.C57_update_pressure",
    "Verif.Pvs.C57_update_explicit_partial",
    "Verif.Pvs.C57_update_partial",
    "Verif.Pvs.C57_update_violated",
    "Verif.Pvs.C57_update_implicit_violated"
   ],
   "note": "storing and reading proved for every number of phases up to 15 (the bits of a short) and components; the pressure limit is proved; the saturation limit holds for up to three phases without gaps between present ones and is violated with gaps and with four phases"
  },
  {
   "property": "C58",
   "status": "partial",
   "theorems": [
    "Verif.Restart.C58_file_round_trip",
    "Verif.Restart.C58_wrong_cookie_rejected",
    "Verif.Restart.C58_too_many_entities_rejected",
    "Verif.Restart.C58_truncated_partial",
    "Verif.Restart.C58_truncated_violated"
   ],
   "note": "Round trip and rejection of wrong cookies and grids proved; truncated files are accepted silently in some cases (negation proved)."
  },
  {
   "property": "C59",
   "status": "partial",
   "theorems": [
    "Verif.Numbers.C59_short_literals_partial",
    "Verif.Numbers.C59_defaults_read_back_violated"
   ],
   "note": "Defaults are stored with six significant digits: negation proved, partial theorem for short literals."
  },
  {
   "property": "C60",
   "status": "partial",
   "theorems": [
    "Verif.Params.C60_printed_list_round_trip_partial",
    "Verif.Params.C60_printed_list_round_trip_violated"
   ],
   "note": "False for values containing a double quote or backslash (negation proved); proved for all others."
  },
  {
   "property": "C61",
   "status": "proved",
   "theorems": [
    "Verif.TimeLoop.C61_run_ends",
    "Verif.TimeLoop.C61_ended_stays"
   ],
   "note": ""
  },
  {
   "property": "C62",
   "status": "partial",
   "theorems": [
    "Verif.TimeLoop.C62_runs_until_end_violated",
    "Verif.TimeLoop.C62_runs_until_end_partial"
   ],
   "note": "The tolerance of finished() is multiplied by the time: negation proved, partial theorem for positive times."
  },
  {
   "property": "C63",
   "status": "partial",
   "theorems": [
    "Verif.TimeLoop.C63_episodeWillBeOver",
    "Verif.TimeLoop.C63_willBeFinished_partial",
    "Verif.TimeLoop.C63_willBeFinished_violated"
   ],
   "note": "episodeWillBeOver is right; willBeFinished is right unless the flag is set or the tolerances differ (negation proved)."
  },
  {
   "property": "C64",
   "status": "partial",
   "theorems": [
    "Verif.Restart.C64_blackoil_round_trip_partial",
    "Verif.Restart.C64_polymer_violated",
    "Verif.Restart.C64_meanings_violated"
   ],
   "note": "Module values are written without separators and brine/solvent meanings are not saved: negations proved, partial theorem without these modules."
  },
  {
   "property": "C65",
   "status": "partial",
   "theorems": [
    "Verif.Restart.C65_continues_partial",
    "Verif.Restart.C65_time_step_size_violated",
    "Verif.Restart.C65_episode_violated"
   ],
   "note": "The step size and the pending start of an episode are not saved: two negations proved, partial theorem if they agree."
  },
  {
   "property": "C66",
   "status": "partial",
   "theorems": [
    "Verif.Tasklets.C66_destruction_completes",
    "Verif.Tasklets.C66_no_crash",
    "Verif.Tasklets.C66_double_unlock_violated"
   ],
   "note": "All dispatched tasklets complete and the workers end; but the worker releases the queue mutex twice when it terminates (undefined behaviour): negation proved."
  },
  {
   "property": "C67",
   "status": "partial",
   "theorems": [
    "Verif.Tasklets.C67_zero_invocations_violated",
    "Verif.Tasklets.C67_barrier_never_returns_violated",
    "Verif.Tasklets.C67_sync_partial"
   ],
   "note": "Holds without worker threads; with workers the tasklet runs for ever and barriers do not return: negations proved."
  },
  {
   "property": "C68",
   "status": "partial",
   "theorems": [
    "Verif.Storage.C68_storage_cache_transparent",
    "Verif.Storage.C68_changed_guess_violated",
    "Verif.Storage.C68_not_recycled"
   ],
   "note": "Proved if the first iteration starts from the previous solution or storage is not recycled; false otherwise (negation proved)."
  },
  {
   "property": "C69",
   "status": "partial",
   "theorems": [
    "Verif.AuxModules.C69_solution_size_partial",
    "Verif.AuxModules.C69_enough_partial",
    "Verif.AuxModules.C69_clear_violated"
   ],
   "note": "Proved after additions; false after clearing (negation proved)."
  },
  {
   "property": "C70",
   "status": "partial",
   "theorems": [
    "Verif.TpfaLife.C70_transmissibilities_partial",
    "Verif.TpfaLife.C70_other_coefficients_violated"
   ],
   "note": "Proved of the transmissibilities; the other coefficients are never updated (negation proved)."
  },
  {
   "property": "C71",
   "status": "partial",
   "theorems": [
    "Verif.FvLin.C71_one_thread_partial",
    "Verif.FvLin.C71_race_violated"
   ],
   "note": "Proved for one thread; several threads race (negation proved)."
  },
  {
   "property": "C72",
   "status": "proved",
   "theorems": [
    "Verif.FvLin.C72_linearizers_agree"
   ],
   "note": ""
  },
  {
   "property": "C73",
   "status": "proved",
   "theorems": [
    "Verif.FvLin.C73_locked",
    "Verif.FvLin.C73_unlocked"
   ],
   "note": ""
  },
  {
   "property": "C74",
   "status": "proved",
   "theorems": [
    "Verif.Gradient.C74_slope",
    "Verif.Gradient.C74_exact",
    "Verif.Gradient.C74_symmetric"
   ],
   "note": ""
  },
  {
   "property": "C75",
   "status": "proved",
   "theorems": [
    "Verif.Krylov.C75_breakdown",
    "Verif.Krylov.C75_published",
    "Verif.Krylov.C75_orthogonal",
    "Verif.Krylov.C75_minimal"
   ],
   "note": ""
  },
  {
   "property": "C76",
   "status": "partial",
   "theorems": [
    "Verif.Krylov.C76_initial",
    "Verif.Krylov.C76_zero_rhs",
    "Verif.Krylov.C76_half_step_partial",
    "Verif.Krylov.C76_violated"
   ],
   "note": "Proved for the iterate in the middle of an iteration; the one at its end is judged by a stale residual (negation proved)."
  },
  {
   "property": "C77",
   "status": "partial",
   "theorems": [
    "Verif.Agree.C77_blackoil_partial",
    "Verif.Agree.C77_update_violated",
    "Verif.Agree.C77_prepare_violated"
   ],
   "note": "Proved for the black-oil Newton method; false of the general one and of preparing preconditioners (negations proved)."
  },
  {
   "property": "C78",
   "status": "partial",
   "theorems": [
    "Verif.BlackOil.C78_assign_read_partial",
    "Verif.BlackOil.C78_assign_read_violated"
   ],
   "note": "proved for all models without solvent, extbo, precipitated salt, if gas dissolves in water only in models without oil; violated with oil and water without gas if gas dissolves in water"
  },
  {
   "property": "C79",
   "status": "partial",
   "theorems": [
    "Verif.BlackOil.C79_appear_continuously_partial",
    "Verif.BlackOil.C79_appear_solvent_violated",
    "Verif.BlackOil.C79_salt",
    "Verif.BlackOil.C79_salt_bounds",
    "Verif.BlackOil.C79_salt_violated"
   ],
   "note": "proved without solvent, precipitating salt and water-filled cells; violated with solvent: the oil saturation is negative before oil appears; violated with precipitating salt (`C79_salt_violated`): all dissolved salt above the solubility is gone when solid salt appears (`C79_salt` says what is kept)"
  },
  {
   "property": "C80",
   "status": "partial",
   "theorems": [
    "Verif.BlackOil.C80_equilibrium_stays_partial",
    "Verif.BlackOil.C80_brine_violated"
   ],
   "note": "proved without brine, solvent, extbo; violated with brine without salt precipitation, where switching takes the limit for fresh water"
  },
  {
   "property": "C81",
   "status": "proved",
   "theorems": [
    "Verif.Params.C81_wrapped_lines_fit"
   ],
   "note": ""
  },
  {
   "property": "C82",
   "status": "partial",
   "theorems": [
    "Verif.Flux.C82_darcy_partial",
    "Verif.Flux.C82_darcy_violated",
    "Verif.Flux.C82_upstream_agreed",
    "Verif.Flux.C82_transmissibility",
    "Verif.Flux.C82_tpfa"
   ],
   "note": "transmissibility based modules proved; the Darcy module unless the line between the volumes lies in the plane of the face, where it is violated for full permeability tensors"
  },
  {
   "property": "C83",
   "status": "partial",
   "theorems": [
    "Verif.Flux.C83_darcy",
    "Verif.Flux.C83_darcy_hydrostatic",
    "Verif.Flux.C83_boundary_partial",
    "Verif.Flux.C83_vertex_boundary_violated",
    "Verif.Flux.C83_transmissibility",
    "Verif.Flux.C83_tpfa"
   ],
   "note": "proved for interior faces of both modules and for boundary faces of cells; violated at boundary faces of vertex centred volumes"
  },
  {
   "property": "C84",
   "status": "partial",
   "theorems": [
    "Verif.Flux.C84_darcy_law",
    "Verif.Flux.C84_darcy_upstream_partial",
    "Verif.Flux.C84_darcy_anisotropic_violated",
    "Verif.Flux.C84_transmissibility",
    "Verif.Flux.C84_transmissibility_upstream"
   ],
   "note": "transmissibility based modules proved; Darcy law proved for the Darcy module, the upstream choice only if the permeability does not turn the flow through the face backwards (violated otherwise)"
  },
  {
   "property": "C85",
   "status": "partial",
   "theorems": [
    "Verif.Flux.C85_free_flow_partial",
    "Verif.Flux.C85_gravity_violated"
   ],
   "note": "proved without gravity; violated with gravity because pressures instead of potentials are compared"
  },
  {
   "property": "C86",
   "status": "partial",
   "theorems": [
    "Verif.Flux.C86_boundary_partial",
    "Verif.Flux.C86_mass_violated",
    "Verif.Flux.C86_mass_factor",
    "Verif.Flux.C86_equal_pressure_violated"
   ],
   "note": "proved for conservation of surface volumes if flow follows the pressure; violated for the default conservation of mass (reference densities applied twice) and if pressures are equal but gravity drives flow"
  },
  {
   "property": "C87",
   "status": "partial",
   "theorems": [
    "Verif.Flux.C87_one_way",
    "Verif.Flux.C87_permitted_partial",
    "Verif.Flux.C87_energy_violated",
    "Verif.Flux.C87_countercurrent_violated"
   ],
   "note": "directions proved; equality with free flow if all phases flow in the permitted direction and amounts are not negative; violated for negative enthalpies and countercurrent phases"
  },
  {
   "property": "C88",
   "status": "proved",
   "theorems": [
    "Verif.Flux.C88_storage",
    "Verif.Flux.C88_flux",
    "Verif.Flux.C88_consistent"
   ],
   "note": "storage and fluxes of the mass equations; additional modules (solvent, polymer, ...) not modelled"
  },
  {
   "property": "C89",
   "status": "partial",
   "theorems": [
    "Verif.Flux.C89_ncp",
    "Verif.Flux.C89_immiscible_partial",
    "Verif.Flux.C89_immiscible_violated",
    "Verif.Flux.C89_pvs_violated",
    "Verif.Flux.C89_pvs_partial",
    "Verif.Flux.C89_volumetric_violated",
    "Verif.Flux.C89_blackoil_partial",
    "Verif.Flux.C89_blackoil_violated",
    "Verif.Flux.C89_blackoil_molar_violated",
    "Verif.Flux.C89_blackoil_molar_partial"
   ],
   "note": "NCP proved; violated for the energy equation of PVS, immiscible and Richards models, volumetric rates of PVS and flash models, black-oil volumetric rates with surface volumes and black-oil molar rates without solvent"
  },
  {
   "property": "C90",
   "status": "partial",
   "theorems": [
    "Verif.Flux.C90_main_direction",
    "Verif.Flux.C90_symmetric",
    "Verif.Flux.C90_series",
    "Verif.Flux.C90_boundary_violated",
    "Verif.Flux.C90_boundary_partial"
   ],
   "note": "interior faces proved; boundary faces violated: an interior face is looked up"
  },
  {
   "property": "C91",
   "status": "partial",
   "theorems": [
    "Verif.Ncp.C91_saturations_late",
    "Verif.Ncp.C91_saturations_partial",
    "Verif.Ncp.C91_four_phases_violated",
    "Verif.Ncp.C91_pressure",
    "Verif.Ncp.C91_fugacities",
    "Verif.Ncp.C91_small_updates_exact",
    "Verif.Ncp.C91_other_variables"
   ],
   "note": "all limits proved for up to three phases in every iteration and for any number of phases from the fourth iteration on; violated for four phases in the first three iterations, where cutting off single saturations breaks the limit of the last phase"
  },
  {
   "property": "C92",
   "status": "partial",
   "theorems": [
    "Verif.Ncp.C92_first_iterations_partial",
    "Verif.Ncp.C92_two_phases",
    "Verif.Ncp.C92_last_phase_violated",
    "Verif.Ncp.C92_boundary_violated"
   ],
   "note": "proved for all saturation variables and fugacities strictly inside their range and for the last phase with two phases; violated for the last of three phases and for saturations which are exactly one"
  },
  {
   "property": "C93",
   "status": "proved",
   "theorems": [
    "Verif.Ncp.C93_presence_iff",
    "Verif.Ncp.C93_presence_tolerance"
   ],
   "note": ""
  },
  {
   "property": "C94",
   "status": "partial",
   "theorems": [
    "Verif.Ncp.C94_error_conservation_partial",
    "Verif.Ncp.C94_presence_violated"
   ],
   "note": "proved for the conservation equations; violated for the phase presence conditions, which the error ignores"
  },
  {
   "property": "C95",
   "status": "proved",
   "theorems": [
    "Verif.Ncp.C95_round_trip",
    "Verif.Ncp.C95_compositions",
    "Verif.Ncp.C95_activity_coefficient"
   ],
   "note": "the compositions for fugacity coefficients which do not depend on the composition (the solver for compositions is not part of the repository)"
  },
  {
   "property": "C96",
   "status": "partial",
   "theorems": [
    "Verif.PtFlash.C96_pressure_and_range",
    "Verif.PtFlash.C96_mole_fractions_partial",
    "Verif.PtFlash.C96_four_components_violated",
    "Verif.PtFlash.C96_small_updates_exact"
   ],
   "note": "everything proved for up to three components; violated for the last of four components, because single mole fractions are cut after scaling"
  },
  {
   "property": "C97",
   "status": "proved",
   "theorems": [
    "Verif.PtFlash.C97_compositions",
    "Verif.PtFlash.C97_saturations"
   ],
   "note": ""
  },
  {
   "property": "C98",
   "status": "partial",
   "theorems": [
    "Verif.PtFlash.C98_stored_partial",
    "Verif.PtFlash.C98_absent_phase_violated"
   ],
   "note": "exact if every component is present in every phase, otherwise up to 1e-8 per phase over the total amount; violated exactly if a phase is absent: the floor is added to the amounts but not to their sum"
  },
  {
   "property": "C99",
   "status": "proved",
   "theorems": [
    "Verif.Richards.C99_saturation_change",
    "Verif.Richards.C99_small_updates_exact"
   ],
   "note": "for laws which invert capillary pressures for all saturations (regularized laws) and cells whose liquid saturation is not negative"
  },
  {
   "property": "C100",
   "status": "partial",
   "theorems": [
    "Verif.Richards.C100_wetting_partial",
    "Verif.Richards.C100_non_wetting_violated"
   ],
   "note": "wetting phase proved; violated for the non-wetting phase: the pressure of the wetting phase is never set"
  },
  {
   "property": "C101",
   "status": "partial",
   "theorems": [
    "Verif.Adapt.C101_number_partial",
    "Verif.Adapt.C101_last_phase_partial",
    "Verif.Adapt.C101_number_violated",
    "Verif.Adapt.C101_front_not_refined_violated"
   ],
   "note": "proved for one phase; with more phases the mark is that of the last phase (proved), so fronts of other phases may not be refined, and elements are counted once per phase (negations proved)"
  },
  {
   "property": "C102",
   "status": "proved",
   "theorems": [
    "Verif.Overlap.C102_construct",
    "Verif.Overlap.C102_terminates"
   ],
   "note": "for grids distributed by cells (all entries of the border list at distance one) whose border lists are right (see C104) and positive overlap sizes; see C142 for vertices. With size two or more, cells of third processes are not part of the overlap as specified and set up"
  },
  {
   "property": "C103",
   "status": "proved",
   "theorems": [
    "Verif.Overlap.C103_coherent",
    "Verif.Overlap.C103_assign"
   ],
   "note": "for the overlaps of C102; removes the assumptions of C50 for them. See C142 for vertices"
  },
  {
   "property": "C104",
   "status": "partial",
   "theorems": [
    "Verif.Overlap.C104_border_partial",
    "Verif.Overlap.C104_isolated_violated",
    "Verif.Overlap.C104_single_violated"
   ],
   "note": "proved if each own cell of which others have copies has an own neighbour; violated otherwise: data of discarded cells stays in the buffer and is taken for that of the next cell, and a process with a single cell makes its neighbours wait for ever (both proved)"
  },
  {
   "property": "C105",
   "status": "proved",
   "theorems": [
    "Verif.OverlapMatrix.C105_matrix",
    "Verif.OverlapMatrix.C105_terminates"
   ],
   "note": "for cell-centred grids, whose overlaps are those of C102; values are scalars instead of blocks"
  },
  {
   "property": "C106",
   "status": "proved",
   "theorems": [
    "Verif.OverlapMatrix.C106_apply",
    "Verif.OverlapMatrix.C106_applyscaleadd"
   ],
   "note": "for cell-centred grids, in exact arithmetic: any semiring; matrices with blocks are matrices over the scalars of the blocks"
  },
  {
   "property": "C107",
   "status": "partial",
   "theorems": [
    "PropSys.C107_unique",
    "PropSys.C107_first",
    "PropSys.C107_found",
    "PropSys.C107_own",
    "PropSys.C107_inherited",
    "PropSys.C107_override_violated",
    "PropSys.C107_override_partial",
    "PropSys.C107_splice_order_violated"
   ],
   "note": "everything but overriding proved in full; overriding proved if no tag is inherited on two ways, violated otherwise (witness: the hierarchy of the test program), and splices of a base take precedence over those of the derived tag"
  },
  {
   "property": "C108",
   "status": "partial",
   "theorems": [
    "MpiUtil.C108_gather_partial",
    "MpiUtil.C108_gather_violated",
    "MpiUtil.C108_serial"
   ],
   "note": "proved if the packed strings together fit into an int; violated otherwise"
  },
  {
   "property": "C109",
   "status": "partial",
   "theorems": [
    "HumanTime.C109_close",
    "HumanTime.C109_clock_partial",
    "HumanTime.C109_clock_violated"
   ],
   "note": "closeness proved; whole numbers and ranges proved except that the last number can equal the next larger unit (60 seconds, 24 hours: violated). The number of digits the stream prints is not modelled"
  },
  {
   "property": "C110",
   "status": "partial",
   "theorems": [
    "Threads.C110_count",
    "Threads.C110_rejects",
    "Threads.C110_rejected_violated",
    "Threads.C110_negative_violated"
   ],
   "note": "proved for successful initialisations; violated after rejected ones (the rejected value is kept) and for negative values other than -1 (accepted with OpenMP)"
  },
  {
   "property": "C111",
   "status": "partial",
   "theorems": [
    "Buffers.C111_memory_partial",
    "Buffers.C111_memory_violated",
    "Buffers.C111_message_partial",
    "Buffers.C111_message_fits",
    "Buffers.C111_message_violated"
   ],
   "note": "proved without copies; violated with copies (memory freed twice) and for messages of more than 2^31 items"
  },
  {
   "property": "C112",
   "status": "partial",
   "theorems": [
    "Aligned.C112_powers",
    "Aligned.C112_natural",
    "Aligned.C112_allocate_partial",
    "Aligned.C112_allocate_violated"
   ],
   "note": "proved up to max_size objects; violated beyond it: the size in bytes overflows"
  },
  {
   "property": "C113",
   "status": "partial",
   "theorems": [
    "Pff.C113_get_partial",
    "Pff.C113_get_violated"
   ],
   "note": "proved for grids with a degree of freedom; violated (undefined behaviour) for grids without elements"
  },
  {
   "property": "C114",
   "status": "partial",
   "theorems": [
    "Verif.PvsSwitch.C114_switched_states",
    "Verif.PvsSwitch.C114_fails_iff",
    "Verif.PvsSwitch.C114_switched_iff",
    "Verif.PvsSwitch.C114_count_partial",
    "Verif.PvsSwitch.C114_count_violated",
    "Verif.PvsSwitch.C114_agreement"
   ],
   "note": "the number of switched degrees of freedom is proved for cells; violated for vertices shared by processes, which are counted several times. The fluid states are those of an arbitrary function of the primary variables"
  },
  {
   "property": "C115",
   "status": "proved",
   "theorems": [
    "Verif.PvsSwitch.C115_dof_round_trip",
    "Verif.PvsSwitch.C115_section_round_trip"
   ],
   "note": "for any number format which can be read back"
  },
  {
   "property": "C116",
   "status": "partial",
   "theorems": [
    "Verif.Vcfv.C116_column_partial",
    "Verif.Vcfv.C116_hexahedron_violated",
    "Verif.Vcfv.C116_parallelepiped",
    "Verif.Vcfv.C116_line",
    "Verif.Vcfv.C116_triangle",
    "Verif.Vcfv.C116_quadrilateral",
    "Verif.Vcfv.C116_concave_violated",
    "Verif.Vcfv.C116_tetrahedron"
   ],
   "note": "lines, triangles, convex quadrilaterals, tetrahedra, parallelepipeds and columns over convex quadrilaterals proved; violated for quadrilaterals which are not convex (areas are absolute values) and for hexahedra whose faces are not plane (the two prisms of a sub-control volume do not share a face)"
  },
  {
   "property": "C117",
   "status": "partial",
   "theorems": [
    "Verif.Vcfv.C117_hexahedron_normals_partial",
    "Verif.Vcfv.C117_hexahedron_outwards",
    "Verif.Vcfv.C117_boundary_hexahedron",
    "Verif.Vcfv.C117_quadrilateral_faces",
    "Verif.Vcfv.C117_quadrilateral_closed",
    "Verif.Vcfv.C117_triangle_faces",
    "Verif.Vcfv.C117_triangle_closed",
    "Verif.Vcfv.C117_boundary_plane",
    "Verif.Vcfv.C117_tetrahedron_closed",
    "Verif.Vcfv.C117_hexahedron_closed",
    "Verif.Vcfv.C117_tetrahedron_normals_partial",
    "Verif.Vcfv.C117_mirrored_violated",
    "Verif.Vcfv.C117_tetrahedron_outwards",
    "Verif.Vcfv.C117_boundary_tetrahedron"
   ],
   "note": "closed surfaces and areas of boundary faces proved for all shapes; normals for triangles, quadrilaterals, positively oriented tetrahedra and parallelepipeds; violated for mirrored elements in three dimensions, whose normals all point the wrong way. Pyramids and prisms are not part of the model (the code rejects them)"
  },
  {
   "property": "C118",
   "status": "partial",
   "theorems": [
    "Verif.Vcfv.C118_corners",
    "Verif.Vcfv.C118_center",
    "Verif.Vcfv.C118_jacobian",
    "Verif.Vcfv.C118_area",
    "Verif.Vcfv.C118_volume",
    "Verif.Vcfv.C118_cubes",
    "Verif.Vcfv.C118_simplices",
    "Verif.Vcfv.C118_tetrahedron",
    "Verif.Vcfv.C118_triangle_partial",
    "Verif.Vcfv.C118_triangle_violated"
   ],
   "note": "the geometry is proved in every dimension, areas and volumes in two and three; tables of lines, squares, cubes and tetrahedra proved; violated for the corner 0 of triangles, whose corners are listed in the wrong order"
  },
  {
   "property": "C119",
   "status": "proved",
   "theorems": [
    "Verif.Vcfv.C119_interpolates",
    "Verif.Vcfv.C119_value_exact",
    "Verif.Vcfv.C119_jacobian",
    "Verif.Vcfv.C119_gradient",
    "Verif.Vcfv.C119_gradient_exact",
    "Verif.Vcfv.C119_derivatives"
   ],
   "note": "shape functions and element maps are those of the libraries (dune-localfunctions, dune-geometry), written out in the model"
  },
  {
   "property": "C120",
   "status": "partial",
   "theorems": [
    "Verif.Extend.C120_extbo_opposite",
    "Verif.Extend.C120_polymer_opposite",
    "Verif.Extend.C120_foam_opposite",
    "Verif.Extend.C120_brine_opposite",
    "Verif.Extend.C120_micp_opposite",
    "Verif.Extend.C120_solvent_opposite_partial",
    "Verif.Extend.C120_extbo_partial",
    "Verif.Extend.C120_foam_partial",
    "Verif.Extend.C120_brine_partial",
    "Verif.Extend.C120_micp_partial",
    "Verif.Extend.C120_polymer_partial",
    "Verif.Extend.C120_solvent_partial",
    "Verif.Extend.C120_solvent_mass_partial",
    "Verif.Extend.C120_uniform_salt_partial",
    "Verif.Extend.C120_solvent_violated",
    "Verif.Extend.C120_solvent_mass_violated",
    "Verif.Extend.C120_extbo_violated",
    "Verif.Extend.C120_floor_violated",
    "Verif.Extend.C120_uniform_salt_violated",
    "Verif.Extend.C120_vapour_violated"
   ],
   "note": "opposite rates proved for every extension; concentration times carrier proved above the floor of 1e-10 the code puts under the amount of carrier; violated: solvent dissolved in water follows the upstream cell of the solvent phase, without volume rates (mass formulation) dissolved solvent is counted in other units, extended black-oil storage and the floors give empty cells a content, sheared water no longer carries salt uniformly, vaporised water is sheared too"
  },
  {
   "property": "C121",
   "status": "partial",
   "theorems": [
    "Verif.Extend.C121_outflow",
    "Verif.Extend.C121_inflow",
    "Verif.Extend.C121_at_rest",
    "Verif.Extend.C121_opposite",
    "Verif.Extend.C121_upstream_agreed_partial",
    "Verif.Extend.C121_dissolved_violated",
    "Verif.Extend.C121_permeability_violated"
   ],
   "note": "rates and opposite rates proved; agreement about the upstream cell above the threshold; violated for ties (solvent dissolved in water is then created) and for the permeability formulation, in which solvent flows up its potential"
  },
  {
   "property": "C122",
   "status": "partial",
   "theorems": [
    "Verif.Extend.TL.C122_densities_partial",
    "Verif.Extend.TL.C122_viscosities_partial",
    "Verif.Extend.TL.C122_immiscible",
    "Verif.Extend.TL.C122_complete_gas",
    "Verif.Extend.TL.C122_complete_solvent",
    "Verif.Extend.TL.C122_complete_oil_partial",
    "Verif.Extend.TL.C122_oil_density_violated",
    "Verif.Extend.TL.C122_immobile_violated"
   ],
   "note": "bounds proved for densities and viscosities of what is mobile, exact means for gas and solvent; violated for oil, whose density is computed from the solvent density already overwritten, and where no fluid is mobile (mixed density zero)"
  },
  {
   "property": "C123",
   "status": "partial",
   "theorems": [
    "Verif.Extend.SatFunc.C123_saturations",
    "Verif.Extend.SatFunc.C123_no_solvent",
    "Verif.Extend.SatFunc.C123_immiscible",
    "Verif.Extend.SatFunc.C123_miscible",
    "Verif.Extend.SatFunc.C123_pressure_immiscible",
    "Verif.Extend.SatFunc.C123_pressure_miscible_partial",
    "Verif.Extend.SatFunc.C123_pressure_violated",
    "Verif.Extend.SatFunc.C123_pressure_water_violated",
    "Verif.Extend.SatFunc.C123_bounds_partial",
    "Verif.Extend.SatFunc.C123_bounds_violated",
    "Verif.Extend.SatFunc.C123_residual"
   ],
   "note": "saturations and relative permeabilities proved for every table; the pressure difference only for the oil pressure as unknown; violated for gas and water pressure; bounds on relative permeabilities proved above the residual oil saturation, violated below"
  },
  {
   "property": "C124",
   "status": "partial",
   "theorems": [
    "Verif.Extend.Poly.C124_water_viscosity_partial",
    "Verif.Extend.Poly.C124_resistance",
    "Verif.Extend.Poly.C124_mobility_partial",
    "Verif.Extend.Poly.C124_polymer_slower_partial",
    "Verif.Extend.Poly.C124_ends",
    "Verif.Extend.Poly.C124_complete",
    "Verif.Extend.Poly.C124_no_desorption",
    "Verif.Extend.Poly.C124_mark_houwink",
    "Verif.Extend.Poly.C124_above_maximum_violated"
   ],
   "note": "for concentrations up to the maximum; violated above it (Newton only keeps concentrations nonnegative), where the mobility of water becomes negative"
  },
  {
   "property": "C125",
   "status": "partial",
   "theorems": [
    "Verif.Extend.Poly.C125_solves_partial",
    "Verif.Extend.Poly.C125_direction",
    "Verif.Extend.Poly.C125_unsheared",
    "Verif.Extend.Poly.C125_constant",
    "Verif.Extend.Poly.C125_throws_violated",
    "Verif.Extend.Poly.C125_face_partial",
    "Verif.Extend.Poly.C125_face_violated"
   ],
   "note": "whenever a factor is returned it solves the equation up to the tolerance; violated: the iteration can cycle and throw although a solution exists, and faces are used as indices of degrees of freedom"
  },
  {
   "property": "C126",
   "status": "partial",
   "theorems": [
    "Verif.Extend.Micp.C126_gradient",
    "Verif.Extend.Micp.C126_defined",
    "Verif.Extend.Micp.C126_biomass",
    "Verif.Extend.Micp.C126_oxygen",
    "Verif.Extend.Micp.C126_calcite",
    "Verif.Extend.Micp.C126_not_negative",
    "Verif.Extend.Micp.C126_permeability_partial",
    "Verif.Extend.Micp.C126_monotone_partial",
    "Verif.Extend.Micp.C126_permeability_violated",
    "Verif.Extend.Micp.C126_exponent_violated",
    "Verif.Extend.Micp.C126_limits",
    "Verif.Extend.Micp.C126_room_partial",
    "Verif.Extend.Micp.C126_porosity_violated"
   ],
   "note": "balances, signs and definedness proved for valid parameters; permeability monotone only above the critical porosity or for odd exponents; violated: even exponents let permeability grow again, non-integer ones give NaN, and biofilm and calcite are limited separately, so that their sum can exceed the pore space"
  },
  {
   "property": "C127",
   "status": "partial",
   "theorems": [
    "Verif.Extend.Energy.C127_storage",
    "Verif.Extend.Energy.C127_conduction_opposite",
    "Verif.Extend.Energy.C127_flux_opposite",
    "Verif.Extend.Energy.C127_series",
    "Verif.Extend.Energy.C127_down",
    "Verif.Extend.Energy.C127_insulated",
    "Verif.Extend.Energy.C127_boundary",
    "Verif.Extend.Energy.C127_scaling_partial",
    "Verif.Extend.Energy.C127_thermal_flow_violated",
    "Verif.Extend.Energy.C127_mixing_violated",
    "Verif.Extend.Energy.C127_boundary_area_violated",
    "Verif.Extend.Energy.C127_assign",
    "Verif.Extend.Energy.C127_assign_violated",
    "Verif.Extend.Energy.C127_restart_partial",
    "Verif.Extend.Energy.C127_restart_violated"
   ],
   "note": "conduction, convection, boundary and insulated boundary proved; common scaling only for convection and conduction between cells; violated: setThermalFlow and convective mixing are not scaled, boundary conduction is not divided by the area, assignPrimaryVars stores an index, restart overwrites every primary variable"
  },
  {
   "property": "C128",
   "status": "partial",
   "theorems": [
    "Verif.Extend.Diff.C128_opposite_partial",
    "Verif.Extend.Diff.C128_exchange",
    "Verif.Extend.Diff.C128_down",
    "Verif.Extend.Diff.C128_formula",
    "Verif.Extend.Diff.C128_region_violated",
    "Verif.Extend.Diff.C128_two_vapours_violated",
    "Verif.Extend.Diff.C128_units_partial",
    "Verif.Extend.Diff.C128_added",
    "Verif.Extend.Diff.C128_units_violated"
   ],
   "note": "opposite fluxes proved for cells of one PVT region; violated across regions, with two vaporised components and when masses are conserved (volumes are added to masses)"
  },
  {
   "property": "C129",
   "status": "partial",
   "theorems": [
    "Verif.Extend.Mix.C129_inactive",
    "Verif.Extend.Mix.C129_level",
    "Verif.Extend.Mix.C129_opposite",
    "Verif.Extend.Mix.C129_sinks",
    "Verif.Extend.Mix.C129_limited",
    "Verif.Extend.Mix.C129_episode",
    "Verif.Extend.Mix.C129_density_partial",
    "Verif.Extend.Mix.C129_oil_violated",
    "Verif.Extend.Mix.C129_salt_partial",
    "Verif.Extend.Mix.C129_salt_violated",
    "Verif.Extend.Mix.C129_units_violated"
   ],
   "note": "opposite fluxes, direction, limits, carried energy and episodes proved for all cells; violated: solid salt is passed as dissolved salt, oil gets the density of water in the averaged density, and volumes are added to masses"
  },
  {
   "property": "C130",
   "status": "partial",
   "theorems": [
    "Verif.Extend.IQ.C130_mobility",
    "Verif.Extend.IQ.C130_correction_partial",
    "Verif.Extend.IQ.C130_directional_violated",
    "Verif.Extend.IQ.C130_relperm_partial",
    "Verif.Extend.IQ.C130_relperm_violated",
    "Verif.Extend.IQ.C130_density",
    "Verif.Extend.IQ.C130_porosity_partial",
    "Verif.Extend.IQ.C130_solids",
    "Verif.Extend.IQ.C130_porosity_violated",
    "Verif.Extend.IQ.C130_rock_pressure"
   ],
   "note": "face mobilities, sums of masses and the effect of solids proved; violated: corrections of modules have no effect on directional mobilities, the reported relative permeability contains them, porosity grows as pressure falls far below the reference pressure"
  },
  {
   "property": "C131",
   "status": "partial",
   "theorems": [
    "Verif.Forch.C131_solution",
    "Verif.Forch.C131_slower",
    "Verif.Forch.C131_equation",
    "Verif.Forch.C131_close_partial",
    "Verif.Forch.C131_still",
    "Verif.Forch.C131_darcy",
    "Verif.Forch.C131_tensor_partial",
    "Verif.Forch.C131_tensor_violated",
    "Verif.Forch.C131_downhill",
    "Verif.Forch.C131_flux",
    "Verif.Forch.C131_opposite",
    "Verif.Forch.C131_boundary_partial",
    "Verif.Forch.C131_upstream",
    "Verif.Forch.C131_boundary_violated",
    "Verif.Forch.C131_mirror_partial",
    "Verif.Forch.C131_mirror_violated"
   ],
   "note": "existence, uniqueness, direction, bound, accuracy of returned velocities and opposite rates proved; violated: off-diagonal permeabilities are ignored without assertions, inflow mixes outside mobility with inside density and viscosity, mirrored problems are not mirrored"
  },
  {
   "property": "C132",
   "status": "partial",
   "theorems": [
    "Verif.Ecfv.C132_describes",
    "Verif.Ecfv.C132_history",
    "Verif.Ecfv.C132_primary_partial",
    "Verif.Ecfv.C132_primary_faces_partial",
    "Verif.Ecfv.C132_primary_violated",
    "Verif.Ecfv.C132_direction",
    "Verif.Ecfv.C132_conserved"
   ],
   "note": "full updates describe the cell for every history, conservation over the grid proved; violated: updatePrimaryTopology leaves the faces of the previous element"
  },
  {
   "property": "C133",
   "status": "partial",
   "theorems": [
    "Verif.Vtk.C133_crash",
    "Verif.Vtk.C133_crash_async_partial",
    "Verif.Vtk.C133_final",
    "Verif.Vtk.C133_race_violated",
    "Verif.Vtk.C133_data",
    "Verif.Vtk.C133_names",
    "Verif.Vtk.C133_distinct",
    "Verif.Vtk.C133_other",
    "Verif.Vtk.C133_restart_partial",
    "Verif.Vtk.C133_restart_other",
    "Verif.Vtk.C133_restart_violated"
   ],
   "note": "synchronous writing: complete document at every moment and exact continuation after restarts proved; data files proved for all schedules; violated: a worker writing between tellp and seekp loses an entry, and outputs pending at serialization are missing after a restart"
  },
  {
   "property": "C134",
   "status": "partial",
   "theorems": [
    "Verif.Vtk.Fields.C134_values",
    "Verif.Vtk.Fields.C134_velocity",
    "Verif.Vtk.Fields.C134_velocity_violated",
    "Verif.Vtk.Fields.C134_gradient_partial",
    "Verif.Vtk.Fields.C134_gradient_violated",
    "Verif.Vtk.Fields.C134_threads_violated",
    "Verif.Vtk.Fields.C134_fracture_violated",
    "Verif.Vtk.Fields.C134_fractions",
    "Verif.Vtk.Fields.C134_absent",
    "Verif.Vtk.Fields.C134_names_partial",
    "Verif.Vtk.Fields.C134_names_violated",
    "Verif.Vtk.Fields.C134_corner",
    "Verif.Vtk.Fields.C134_closest"
   ],
   "note": "assigned fields, averages, total fractions, corners proved; violated: unsynchronised additions of threads are lost, vertices which are never interior and cells without faces show NaN, fracture fractions are counted per phase, diffusion fields of all phases have the same name"
  },
  {
   "property": "C135",
   "status": "partial",
   "theorems": [
    "Verif.Fracture.C135_marked",
    "Verif.Fracture.C135_volume",
    "Verif.Fracture.C135_volume_partial",
    "Verif.Fracture.C135_boundary_violated",
    "Verif.Fracture.C135_storage",
    "Verif.Fracture.C135_storage_same",
    "Verif.Fracture.C135_room_partial",
    "Verif.Fracture.C135_room_violated",
    "Verif.Fracture.C135_saturations",
    "Verif.Fracture.C135_saturations_violated",
    "Verif.Fracture.C135_assign",
    "Verif.Fracture.C135_assign_violated",
    "Verif.Fracture.C135_flux",
    "Verif.Fracture.C135_flux_same",
    "Verif.Fracture.C135_opposite",
    "Verif.Fracture.C135_down",
    "Verif.Fracture.C135_upstream_partial",
    "Verif.Fracture.C135_upstream_violated",
    "Verif.Fracture.C135_permeability_partial",
    "Verif.Fracture.C135_permeability_violated",
    "Verif.Fracture.C135_cache_partial",
    "Verif.Fracture.C135_cache_violated"
   ],
   "note": "marks, balances of storage and flux, opposite and downward flow proved; violated: fractures on the boundary of the domain have half their volume, wide fractures give negative storage without assertions, entry-wise means of full tensors let fluid flow uphill, saturations are limited on one side only, the documented parameters of assignNaiveFromFracture give another state, and the storage cache gives rates to unchanged states"
  },
  {
   "property": "C136",
   "status": "partial",
   "theorems": [
    "Verif.Deriv.C136_mass",
    "Verif.Deriv.C136_component",
    "Verif.Deriv.C136_face_value",
    "Verif.Deriv.C136_other",
    "Verif.Deriv.C136_values",
    "Verif.Deriv.C136_energy_partial",
    "Verif.Deriv.C136_energy_violated",
    "Verif.Deriv.C136_conduction_partial",
    "Verif.Deriv.C136_conduction_violated",
    "Verif.Deriv.C136_diffusion_partial",
    "Verif.Deriv.C136_diffusion_violated",
    "Verif.Deriv.C136_boundary_partial",
    "Verif.Deriv.C136_boundary_noFocus_partial",
    "Verif.Deriv.C136_boundary_violated",
    "Verif.Deriv.C136_same",
    "Verif.Deriv.C136_same_boundary"
   ],
   "note": "mass and component fluxes of immiscible, flash, PVS and NCP models, face values and independence of residuals proved; violated: advective energy fluxes, mean conductivities and diffusion coefficients, the molar density of diffusion, and densities and conduction at boundaries carry derivatives of degrees of freedom which are not in focus, or drop those which are"
  },
  {
   "property": "C137",
   "status": "partial",
   "theorems": [
    "Verif.Exchange.C137_opposite",
    "Verif.Exchange.C137_warm_to_cold",
    "Verif.Exchange.C137_dilute",
    "Verif.Exchange.C137_replace_partial",
    "Verif.Exchange.C137_replace_violated",
    "Verif.Exchange.C137_tortuosity",
    "Verif.Exchange.C137_absent_violated",
    "Verif.Exchange.C137_boundary_violated",
    "Verif.Exchange.C137_boundary_flow",
    "Verif.Exchange.C137_boundary_conduction"
   ],
   "note": "opposite fluxes, directions, tortuosity proved; violated: components with different coefficients do not replace one another, absent phases have a tortuosity as if 0.0001 of the volume were filled, and nothing diffuses over boundaries"
  },
  {
   "property": "C138",
   "status": "partial",
   "theorems": [
    "Verif.Boundary.C138_cell",
    "Verif.Boundary.C138_vertex_partial",
    "Verif.Boundary.C138_vertex_violated",
    "Verif.Boundary.C138_process_violated",
    "Verif.Boundary.C138_check_seen_partial",
    "Verif.Boundary.C138_check_seen_violated",
    "Verif.Boundary.C138_check_vertex",
    "Verif.Boundary.C138_check_cell",
    "Verif.Boundary.C138_check_accepts",
    "Verif.Boundary.C138_extrusion_violated",
    "Verif.Boundary.C138_sign_violated",
    "Verif.Boundary.C138_equal"
   ],
   "note": "cells proved for all orders of intersections, the check proved to measure the sum of residuals; violated: with vertices in two dimensions the iterator runs ahead of the faces and past the end, at borders of processes it is off by one, the check never moves it, takes the extrusion of another time, and is stricter for one sign of the rates"
  },
  {
   "property": "C139",
   "status": "partial",
   "theorems": [
    "Verif.Transfer.C139_refine",
    "Verif.Transfer.C139_coarsen",
    "Verif.Transfer.C139_roundtrip",
    "Verif.Transfer.C139_values",
    "Verif.Transfer.C139_part",
    "Verif.Transfer.C139_whole",
    "Verif.Transfer.C139_place_violated",
    "Verif.Transfer.C139_integral_refine",
    "Verif.Transfer.C139_integral_coarsen_partial",
    "Verif.Transfer.C139_integral_violated",
    "Verif.Transfer.C139_balance_violated"
   ],
   "note": "effects of refining and coarsening, definedness and range of values for all histories, places of pure refinement or coarsening, conservation by refinement proved; violated: a cell which is coarsened and refined has the data of another place, coarsening takes the data of the first part and does not conserve, and data is not moved between processes"
  },
  {
   "property": "C140",
   "status": "partial",
   "theorems": [
    "Verif.Names.C140_immiscible",
    "Verif.Names.C140_immiscible_quantities",
    "Verif.Names.C140_pvs",
    "Verif.Names.C140_flash",
    "Verif.Names.C140_ptflash",
    "Verif.Names.C140_ncp",
    "Verif.Names.C140_base",
    "Verif.Names.C140_blackoil_partial",
    "Verif.Names.C140_blackoil_unnamed_violated",
    "Verif.Names.C140_blackoil_twice_violated",
    "Verif.Names.C140_blackoil_two_phases_violated",
    "Verif.Names.C140_blackoil_swapped_violated",
    "Verif.Names.C140_fields",
    "Verif.Names.C140_fields_violated",
    "Verif.Names.C140_convergence"
   ],
   "note": "immiscible, PVS, flash, pressure-temperature flash and NCP models, models without names, the black-oil model with solvent, extended black-oil, polymer and energy, and the fields of the convergence writer proved; violated: foam, salt and MICP have no names, solvent and extended black-oil equations share one, with two phases the first additional equation is called after an absent phase, and equations of components are called after phases in another order"
  },
  {
   "property": "C141",
   "status": "proved",
   "theorems": [
    "Verif.Amg.C141_index_set",
    "Verif.Amg.C141_one_owner"
   ],
   "note": "for the overlaps constructed as in C102 (grids distributed by cells)"
  },
  {
   "property": "C142",
   "status": "partial",
   "theorems": [
    "Verif.Overlap.Vertex.C142_foreign",
    "Verif.Overlap.Vertex.C142_construct",
    "Verif.Overlap.Vertex.C142_terminates",
    "Verif.Overlap.Vertex.C142_coherent",
    "Verif.Overlap.Vertex.C142_assign",
    "Verif.Overlap.Vertex.C142_add",
    "Verif.Overlap.Vertex.C142_ghost_violated"
   ],
   "note": "proved if ghost vertices, which are black-listed, have higher indices than all others (or there are none); violated otherwise, because the exchange compares local indices with the native ones of the border list"
  },
  {
   "property": "C143",
   "status": "partial",
   "theorems": [
    "Verif.Solver.C143_fits_partial",
    "Verif.Solver.C143_defined_partial",
    "Verif.Solver.C143_freed_partial",
    "Verif.Solver.C143_reuse",
    "Verif.Solver.C143_module_violated",
    "Verif.Solver.C143_leak_violated",
    "Verif.Solver.C143_memory_violated"
   ],
   "note": "proved if modules are only added before the first iteration or after they were cleared or the grid was changed, and if the vectors can be allocated; violated otherwise. A preconditioner stays in memory for ever if that of another process cannot be made; the number of these is exact"
  },
  {
   "property": "C144",
   "status": "proved",
   "theorems": [
    "Verif.Solver.C144_setBlock",
    "Verif.Solver.C144_sum",
    "Verif.Solver.C144_clearRow",
    "Verif.Solver.C144_pattern"
   ],
   "note": "access outside of the pattern is undefined behaviour in the code and an error in the model"
  },
  {
   "property": "C145",
   "status": "partial",
   "theorems": [
    "Verif.Vtk.Switches.C145_written_partial",
    "Verif.Vtk.Switches.C145_values",
    "Verif.Vtk.Switches.C145_names",
    "Verif.Vtk.Switches.C145_ratio",
    "Verif.Vtk.Switches.C145_switch_violated"
   ],
   "note": "proved for all parameters but that of the correction of the water viscosity, which is ignored; values for fields whose phases are active"
  },
  {
   "property": "C146",
   "status": "partial",
   "theorems": [
    "Verif.Art.C146_geometry_partial",
    "Verif.Art.C146_fractures_partial",
    "Verif.Art.C146_which",
    "Verif.Art.C146_refined_violated",
    "Verif.Art.C146_rejected",
    "Verif.Art.C146_fractures_violated",
    "Verif.Art.C146_separator_violated"
   ],
   "note": "geometry proved unless white space follows the dollar sign which ends a section (violated); fractures stay fractures, but edges with both ends on fractures become fractures, and after a refinement no edge is a fracture (both violated)"
  },
  {
   "property": "C147",
   "status": "partial",
   "theorems": [
    "Verif.Storage.Phase.C147_storage",
    "Verif.Storage.Phase.C147_phase_partial",
    "Verif.Storage.Phase.C147_total_partial",
    "Verif.Storage.Phase.C147_processes",
    "Verif.Storage.Phase.C147_cells_violated",
    "Verif.Storage.Phase.C147_twice_violated"
   ],
   "note": "proved for discretisations all of whose degrees of freedom are primary (vertex-centred); with cell-centred grids each cell is counted once more for every neighbour (violated)"
  },
  {
   "property": "C148",
   "status": "partial",
   "theorems": [
    "Verif.ParSolve.C148_solve_partial",
    "Verif.ParSolve.C148_exists",
    "Verif.ParSolve.C148_order_violated",
    "Verif.ParSolve.C148_two",
    "Verif.ParSolve.C148_thin",
    "Verif.ParSolve.C148_sweeps_violated"
   ],
   "note": "Proved for the Jacobi preconditioner with as many sweeps as the overlap is wide enough for: always for one sweep (wide_one), as many as the size of the overlap for two processes (C148_two).  With three processes no overlap may be wide enough for two sweeps, and the preconditioner then gives other values than on one process (C148_sweeps_violated); with the default order of zero the solver always breaks down (C148_order_violated). Other preconditioners work on the parts of the processes, so their iterations depend on the partition by design."
  },
  {
   "property": "C149",
   "status": "partial",
   "theorems": [
    "Verif.Setup.C149_agree_partial",
    "Verif.Setup.C149_silent_violated",
    "Verif.Setup.C149_foreign_violated",
    "Verif.Setup.C149_missed_violated"
   ],
   "note": "Proved if all processes take part in the same collective operations within each step and exceptions are derived from std::exception. Negations are proved for other exceptions, for exceptions before a collective operation of the same step, and for an exception without a text on one process."
  },
  {
   "property": "C150",
   "status": "partial",
   "theorems": [
    "Verif.Volumes.C150_volume",
    "Verif.Volumes.C150_total",
    "Verif.Volumes.C150_local",
    "Verif.Volumes.C150_box_partial",
    "Verif.Volumes.C150_box_violated"
   ],
   "note": "Volumes and local degrees of freedom are proved in full. The bounding box is proved for grids which have as many dimensions as the space around them; for others the negation is proved (the remaining coordinates are never looked at)."
  },
  {
   "property": "C151",
   "status": "partial",
   "theorems": [
    "Verif.StepSize.C151_no_tiny_rest",
    "Verif.StepSize.C151_maximum_partial",
    "Verif.StepSize.C151_maximum_violated",
    "Verif.StepSize.C151_minimum_partial",
    "Verif.StepSize.C151_minimum_violated",
    "Verif.StepSize.C151_run_partial",
    "Verif.StepSize.C151_run_no_tiny_rest",
    "Verif.StepSize.C151_imposed_partial",
    "Verif.StepSize.C151_imposed_violated"
   ],
   "note": "No tiny rest: proved for whole runs. Limits: negations are proved; the maximum may be exceeded by one percent and the minimum missed by a half, when between one and two steps are left. The partial theorems give exactly these bounds, for whole runs with any failures."
  },
  {
   "property": "C152",
   "status": "partial",
   "theorems": [
    "Verif.Weights.C152_immiscible",
    "Verif.Weights.C152_pvs",
    "Verif.Weights.C152_pvs_variables",
    "Verif.Weights.C152_ncp",
    "Verif.Weights.C152_flash",
    "Verif.Weights.C152_default",
    "Verif.Weights.C152_epsilon",
    "Verif.Weights.C152_reference_partial",
    "Verif.Weights.C152_reference_pvs_partial",
    "Verif.Weights.C152_reference_violated",
    "Verif.Weights.C152_richards_violated",
    "Verif.Weights.C152_richards_partial",
    "Verif.Weights.C152_blackoil_partial",
    "Verif.Weights.C152_blackoil_violated",
    "Verif.Weights.C152_threads_violated"
   ],
   "note": "Proved that weights of the immiscible, PVS, NCP, flash and default models are positive if the reference pressure and molar masses are, that the reference pressure is that of the first local degree of freedom, and that steps of finite differences are positive. Violated: no reference pressure on processes without local degrees of freedom (and an access beyond the end with auxiliary degrees of freedom), negative pressures in the Richards model, no weights for brine, foam and MICP variables, and a race between threads in the NCP model."
  },
  {
   "property": "C153",
   "status": "partial",
   "theorems": [
    "Verif.Initial.C153_initial_cells",
    "Verif.Initial.C153_initial_vertices_partial",
    "Verif.Initial.C153_initial_vertices_violated",
    "Verif.Initial.C153_residual",
    "Verif.Initial.C153_norm",
    "Verif.Initial.C153_norm_cells",
    "Verif.Initial.C153_norm_bounds_partial",
    "Verif.Initial.C153_norm_violated",
    "Verif.Initial.C153_auxiliary_violated"
   ],
   "note": "Proved for cell-centred grids: all processes get the initial values of all their cells on all time levels, the residual is right for any order of elements and messages, and its norm is that of a single process. For vertex-centred grids the norm is between that of a single process and sqrt(P) times it. Violated: vertices outside of the interior cells start with zero, vertices on borders are counted several times in the norm (a comment in the code says so), auxiliary equations are left out."
  },
  {
   "property": "C154",
   "status": "partial",
   "theorems": [
    "Verif.Flows.C154_create",
    "Verif.Flows.C154_update",
    "Verif.Flows.C154_run",
    "Verif.Flows.C154_residual",
    "Verif.Flows.C154_opposite",
    "Verif.Flows.C154_keep",
    "Verif.Flows.C154_order_violated",
    "Verif.Flows.C154_auxiliary_violated",
    "Verif.Flows.C154_velocity",
    "Verif.Flows.C154_velocity_unset_violated"
   ],
   "note": "Proved for grids which iterate in the order of their indices and without auxiliary degrees of freedom: the table of flows, updates in any order and number, sums equal to the residual, opposite flows, labels of connections, norm of velocities. Violated: other orders of iteration mix up neighbours, auxiliary degrees of freedom are read beyond the end of the table, and the norm of the velocity is uninitialised memory before the first linearization."
  },
  {
   "property": "C155",
   "status": "partial",
   "theorems": [
    "Verif.Todd.C155_density_partial",
    "Verif.Todd.C155_viscosity_partial",
    "Verif.Todd.C155_unchanged",
    "Verif.Todd.C155_complete_partial",
    "Verif.Todd.C155_oil_violated",
    "Verif.Todd.C155_density_violated",
    "Verif.Todd.C155_viscosity_violated"
   ],
   "note": "Bounds on densities and viscosities, the unchanged cases and complete mixing are proved for all inputs where something is above the critical saturations; three violations are proved: the density of oil uses the already overwritten density of solvent, and with everything below the critical saturations the density of the solvent and its viscosity leave the range."
  },
  {
   "property": "C156",
   "status": "partial",
   "theorems": [
    "Verif.Decks.C156_keyword",
    "Verif.Decks.C156_off",
    "Verif.Decks.C156_foam",
    "Verif.Decks.C156_foam_robust",
    "Verif.Decks.C156_brine_partial",
    "Verif.Decks.C156_brine_violated",
    "Verif.Decks.C156_brine_again_violated",
    "Verif.Decks.C156_solvent_partial",
    "Verif.Decks.C156_miscnum_violated",
    "Verif.Decks.C156_solvent_again_violated",
    "Verif.Decks.C156_polymer_partial",
    "Verif.Decks.C156_shear",
    "Verif.Decks.C156_shear_violated",
    "Verif.Decks.C156_maps_partial",
    "Verif.Decks.C156_polymer_violated",
    "Verif.Decks.C156_maps_violated"
   ],
   "note": "Keyword checks, foam (complete characterisation), the shear multipliers and, for matching numbers of tables, brine, solvent and polymer are proved for all decks. Violated: too many PERMFACT or PCFACT tables and too few PVTWSALT or PLMIXPAR records give undefined behaviour, several miscibility regions are accepted without assertions, PLYSHLOG with molecular weight reads empty vectors, and brine, solvent and polymer parameters of an earlier deck survive."
  },
  {
   "property": "C157",
   "status": "partial",
   "theorems": [
    "Verif.Pvtsol.C157_accepts",
    "Verif.Pvtsol.C157_tables_partial",
    "Verif.Pvtsol.C157_again_violated",
    "Verif.Pvtsol.C157_ascending",
    "Verif.Pvtsol.C157_oil_compressibility",
    "Verif.Pvtsol.C157_mass_partial",
    "Verif.Pvtsol.C157_density",
    "Verif.Pvtsol.C157_bubble_partial",
    "Verif.Pvtsol.C157_dew_partial",
    "Verif.Pvtsol.C157_mass_violated",
    "Verif.Pvtsol.C157_bubble_violated",
    "Verif.Pvtsol.C157_dew_violated",
    "Verif.Pvtsol.C157_gas_violated"
   ],
   "note": "Acceptance of decks, ascending order of tables, negative compressibility of oil and positive densities are proved for all decks and cells; contents of tables for the first deck, masses without vaporized water, continuity at the bubble point up to the limit and at the dew point without capillary pressure. Violated: a second deck doubles all positions, water vapour is dropped from the density of gas, the formation volume factors jump beyond the limit and with capillary pressure, and equal RV in two rows makes the compressibility of gas not a number."
  },
  {
   "property": "C158",
   "status": "partial",
   "theorems": [
    "Verif.Pack.C158_equality",
    "Verif.Pack.C158_primary_variables",
    "Verif.Pack.C158_solution_equality",
    "Verif.Pack.C158_solution",
    "Verif.Pack.C158_model",
    "Verif.Pack.C158_simulator_partial",
    "Verif.Pack.C158_time_step_size_violated",
    "Verif.Pack.C158_cache_partial",
    "Verif.Pack.C158_cache_violated"
   ],
   "note": "Round trips of primary variables, solutions of any size and all time levels, and both comparison operators are proved for all objects; the simulator up to time step size, end time and the finished flag. Violated: the time step size is not packed, and cached intensive quantities of the previous solution survive unpacking. Losslessness of the serializer for numbers, enumerations, vanguard and problem is a hypothesis."
  },
  {
   "property": "C159",
   "status": "partial",
   "theorems": [
    "Verif.Params.C159_values_partial",
    "Verif.Params.C159_same_run_partial",
    "Verif.Params.C159_given_violated",
    "Verif.Params.C159_unused",
    "Verif.Params.C159_no_unused",
    "Verif.Params.C159_help_complete",
    "Verif.Params.C159_help_entry"
   ],
   "note": "For values without double quotes, backslashes and newlines the printed list, given as the only parameter file, reproduces the value of every registered parameter (whole set-up of a second run); reporting of unused parameters and completeness of the help message and its entries are proved for all inputs (texts without newlines). Violated: a second run takes all parameters as set (IsSet), and values with quotes or backslashes are not reproduced (C60)."
  },
  {
   "property": "C160",
   "status": "partial",
   "theorems": [
    "Verif.Balance.C160_balance_partial",
    "Verif.Balance.C160_balance_violated",
    "Verif.Balance.C160_continue_violated"
   ],
   "note": "Proved for all runs (any number of steps of the time loop) of the composition of the models of time loop, time integration, Newton method and two-point flux linearizer, if every completed step begins at a solution which does not meet the tolerance yet and the simulation is not told to continue after failures. Violated otherwise: the Newton method accepts one unchecked update, and a failed step which is accepted keeps the old solution."
  },
  {
   "property": "C161",
   "status": "partial",
   "theorems": [
    "Verif.ParNewton.C161_newton_partial",
    "Verif.ParNewton.C161_copies",
    "Verif.ParNewton.C161_stale",
    "Verif.ParNewton.C161_constraints",
    "Verif.ParNewton.C161_distributions",
    "Verif.ParNewton.C161_exists",
    "Verif.ParNewton.C161_stale_violated"
   ],
   "note": "Outcome, iterations, errors, freedom from deadlock and values of own cells are proved for all equations, constraints, distributions of the grid, overlap sizes, schedules, settings and numbers of iterations, on top of the models of the overlap, the overlapping matrices and the parallel linear solver; cells with constraints have the prescribed values on all processes after a success; copies after a success with more than one iteration. Violated: after a success with one iteration copies have been updated by zero instead of the update of their owners. Any number of equations per cell (blocks), cell-centred, no auxiliary equations, as many sweeps of the Jacobi method as the overlap is wide enough for, as preconditioner, exact numbers; cached intensive quantities of copies have to be right at first."
  },
  {
   "property": "C162",
   "status": "partial",
   "theorems": [
    "Verif.ParSim.C162_simulation_partial",
    "Verif.ParSim.C162_agree",
    "Verif.ParSim.C162_distributions",
    "Verif.ParSim.C162_exists",
    "Verif.ParSim.C162_tie_partial",
    "Verif.ParSim.C162_constraints_partial",
    "Verif.ParSim.C162_constraints_agree",
    "Verif.ParSim.C162_constraints_values",
    "Verif.ParSim.C162_constraints_none",
    "Verif.ParSim.C162_constraints_exists"
   ],
   "note": "Proved for every number of steps of the time loop, relative to the model of the Newton method on several processes (C161): real arithmetic over an ordered field with exact sums, any number of equations per cell, cell centred finite volumes, as many sweeps of the Jacobi method as the overlap is wide enough for, as preconditioner.  With constraints, which are also written into the previous time level: C162_constraints_partial, C162_constraints_agree, C162_constraints_values (prescribed values after a time step which converged), C162_constraints_none, C162_constraints_exists, C162_tie_partial (for any task which is performed without constraints).  Cached intensive quantities: C182.  Callbacks of the problem are assumed to use values of own cells only and to do the same on all processes; that copies can be left behind after a time step is C161_stale_violated."
  },
  {
   "property": "C163",
   "status": "partial",
   "theorems": [
    "Verif.Convergence.C163_error_partial",
    "Verif.Convergence.C163_normalized",
    "Verif.Convergence.C163_limited_violated",
    "Verif.Convergence.C163_times_partial",
    "Verif.Convergence.C163_times_violated"
   ],
   "note": "Fields and their scaling proved for all inputs; times increase as long as no call of the Newton method has more than a hundred iterations.  Violated otherwise (C163_times_violated), and the relative error is that of the update before it is limited by the model (C163_limited_violated)."
  },
  {
   "property": "C164",
   "status": "partial",
   "theorems": [
    "Verif.ThreadSim.C164_threads",
    "Verif.ThreadSim.C164_balance_partial",
    "Verif.ThreadSim.C164_exists"
   ],
   "note": "Independence of threads, schedules and linearizers (C164_threads) is proved in full for the composition of the models: loads and stores of entries as atomic operations, exact addition (in floating point arithmetic the order of additions within one entry is fixed by the code for the two-point flux linearizer, but not for the locked one), the linear solver as an arbitrary function of the system. The balance of mass is proved with the restrictions of C160."
  },
  {
   "property": "C165",
   "status": "partial",
   "theorems": [
    "Verif.Bounds.C165_blackoil_partial",
    "Verif.Bounds.C165_blackoil_defined",
    "Verif.Bounds.C165_flash",
    "Verif.Bounds.C165_flash_defined",
    "Verif.Bounds.C165_ncp",
    "Verif.Bounds.C165_projection_violated"
   ],
   "note": "Flash and NCP: proved in full for the composition of the models.  Black oil: proved for layouts without the solvent module and if saturations are projected; by default they are not, and then saturations become negative (C165_projection_violated).  Arithmetic of an ordered field, so updates are not NaN; no constraints, no auxiliary equations."
  },
  {
   "property": "C166",
   "status": "partial",
   "theorems": [
    "Verif.RestartSim.C166_file",
    "Verif.RestartSim.C166_continues_partial",
    "Verif.RestartSim.C166_size_violated",
    "Verif.RestartSim.C166_episode_violated"
   ],
   "note": "What is read is proved to be what was written, and the continuation to be the uninterrupted run for every later step, if the new process has the time step size of the saved one and no episode ended right before the file was written.  Without these conditions the property is false (C166_size_violated, C166_episode_violated).  The problem has to restore its own state; formats of numbers are lawful (C20_twenty_digits_suffice), one process, exact arithmetic."
  },
  {
   "property": "C167",
   "status": "partial",
   "theorems": [
    "Verif.Flux.C167_flux",
    "Verif.Flux.C167_hydrostatic",
    "Verif.Flux.C167_direction",
    "Verif.Flux.C167_components_partial",
    "Verif.Flux.C167_gravity_violated",
    "Verif.Flux.C167_leaving_partial",
    "Verif.Flux.C167_entering_violated",
    "Verif.Flux.C167_salt_violated",
    "Verif.Flux.C167_polymer_violated"
   ],
   "note": "Fluxes of the phases proved in full for the transmissibility based module (C167_flux, C167_hydrostatic, C167_direction).  Components: proved without gravity and with surface volumes conserved; solvent, microbes, oxygen and urea: proved for outflow.  The code violates the rest: content of the wrong side with gravity (C167_gravity_violated), inflow carries what the cell contains (C167_entering_violated), salt, foam and z fraction never cross the boundary (C167_salt_violated), polymer and dissolved solvent are counted differently (C167_polymer_violated)."
  },
  {
   "property": "C168",
   "status": "partial",
   "theorems": [
    "Verif.Rest.C168_stationary",
    "Verif.Rest.C168_first_attempt",
    "Verif.Rest.C168_hydrostatic",
    "Verif.Rest.C168_constant_density",
    "Verif.Rest.C168_rest",
    "Verif.Rest.C168_zero_reduction",
    "Verif.Rest.C168_zero_combined",
    "Verif.Rest.C168_fixpoint_violated"
   ],
   "note": "Proved for the composition of the models of time loop, time integration, Newton method, two-point flux linearizer and transmissibility based fluxes, for exact arithmetic of an ordered field.  That zero updates change nothing is a hypothesis (it holds for the default update; for switched variables see C80), and so is zero for zero of the linear solver, which is proved for BiCGStab with the criteria in use (C168_zero_reduction, C168_zero_combined) and false with the fix-point criterion (C168_fixpoint_violated)."
  },
  {
   "property": "C169",
   "status": "partial",
   "theorems": [
    "Verif.ParBalance.C169_balance_partial",
    "Verif.ParBalance.C169_amount"
   ],
   "note": "Proved for the composition of the models of grids, linearization, Newton method and time loop on several processes: the sum over own cells changes by what sources and boundary supplied, up to the tolerance.  Missing: steps whose initial solution meets the tolerance (then the Newton method does at least one step only by default, C160_balance_violated) and continue-on-error (C160_continue_violated).  Any number of equations per cell, of which the balance is one (nothing is asked of the others); arithmetic of an ordered field."
  },
  {
   "property": "C170",
   "status": "partial",
   "theorems": [
    "Verif.PtFlash.C170_stored",
    "Verif.PtFlash.C170_flux",
    "Verif.PtFlash.C170_round_trip_partial",
    "Verif.PtFlash.C170_again",
    "Verif.PtFlash.C170_first"
   ],
   "note": "Storage and fluxes proved in full for a flash solver which divides mixtures and an equation of state with positive molar volumes (both are outside the repository).  The way back to primary variables is exact only if every component is present in both phases, see C98_absent_phase_violated.  Values only, no derivatives."
  },
  {
   "property": "C171",
   "status": "partial",
   "theorems": [
    "Verif.Hints.C171_own_partial",
    "Verif.Hints.C171_off_partial",
    "Verif.Hints.C171_storage_cache_partial",
    "Verif.Hints.C171_no_cache_violated",
    "Verif.Hints.C171_pointer_partial",
    "Verif.Hints.C171_foreign_violated",
    "Verif.Hints.C171_order_violated"
   ],
   "note": "Proved in full for the flash model and the model with complementarity conditions, and for every model if hints or the cache are off, and for the PT-flash model if storage terms are cached (C171_storage_cache_partial).  Otherwise the model based on PT-flash calculations uses the hint for the previous time, which is one of another cell if the context has visited another element before (C171_foreign_violated, C171_order_violated).  The parameter for hints has no effect if the cache for intensive quantities is off (C171_no_cache_violated)."
  },
  {
   "property": "C172",
   "status": "partial",
   "theorems": [
    "Verif.Cache.C172_whole_grid",
    "Verif.Cache.C172_view_partial",
    "Verif.Cache.C172_time_index_violated",
    "Verif.Cache.C172_asked",
    "Verif.Cache.C172_overlap_violated"
   ],
   "note": "Proved for the overload without a grid view from every state, and for the overload with a grid view at the current time index and its interior elements. The code violates the full property: with another time index the entries of that time index are invalidated, but those of time index 0 are updated (`C172_time_index_violated`), and elements of the overlap are skipped, which keep stale quantities (`C172_overlap_violated`). Threads which share the loop are not modelled."
  },
  {
   "property": "C173",
   "status": "partial",
   "theorems": [
    "Verif.Flux.Agree.C173_same_partial",
    "Verif.Flux.Agree.C173_opposite_partial",
    "Verif.Flux.Agree.C173_multiplier",
    "Verif.Flux.Agree.C173_mixing",
    "Verif.Flux.Agree.C173_multiplier_violated",
    "Verif.Flux.Agree.C173_dispersion_violated",
    "Verif.Flux.Agree.C173_deck_violated",
    "Verif.Flux.Agree.C173_boundary"
   ],
   "note": "Equality proved if the multipliers for rock compaction are one, dispersion is not compiled in and the deck asks for the diffusion which is compiled in; the code violates the rest: only the two-point flux residual has the multiplier and dispersion, and it uses diffusion coefficients which are never set if the deck does not ask for diffusion (C173_multiplier_violated, C173_dispersion_violated, C173_deck_violated).  calculatePhasePressureDiff_ is not in the repository and taken to be that of the flux module; threshold pressures are left out.  Energy is in C127."
  },
  {
   "property": "C174",
   "status": "partial",
   "theorems": [
    "Verif.BlackOil.C174_switch_partial",
    "Verif.BlackOil.C174_bounds_partial",
    "Verif.BlackOil.C174_scale_violated",
    "Verif.BlackOil.C174_salt_violated",
    "Verif.BlackOil.C174_capillary_violated",
    "Verif.Extend.IQ.C174_density_partial",
    "Verif.Extend.IQ.C174_mass_violated",
    "Verif.Extend.IQ.C174_mobility_partial",
    "Verif.Extend.IQ.C174_directional_violated",
    "Verif.Extend.IQ.C174_inert"
   ],
   "note": "Densities proved for surface volumes and common reference densities, without miscibility; mobility proved for common relative permeabilities; the phase change proved if pressures are not scaled, the pressure variable is that of the water, and salt is absent or precipitates.  The code violates the rest: with equations for masses dissolved solvent counts with the density of the water, directional mobilities are not corrected, and adaptPrimaryVariables evaluates the limit of solubility with the scaled pressure variable, without capillary pressure and without salt unless salt precipitates."
  },
  {
   "property": "C175",
   "status": "partial",
   "theorems": [
    "Verif.OverlapMatrix.Vertex.C175_matrix",
    "Verif.OverlapMatrix.Vertex.C175_terminates",
    "Verif.OverlapMatrix.Vertex.C175_apply_partial",
    "Verif.OverlapMatrix.Vertex.C175_applyscaleadd_partial",
    "Verif.OverlapMatrix.Vertex.C175_apply_violated"
   ],
   "note": "The matrix proved in full for every overlap size; products proved for positive overlap sizes.  Without an overlap the operator is not the matrix of the whole grid (C175_apply_violated).  Ghost vertices have the largest indices (see C142_ghost_violated for others).  Values are scalars instead of blocks."
  },
  {
   "property": "C176",
   "status": "partial",
   "theorems": [
    "Verif.OverlapMatrix.C176_copy_partial",
    "Verif.OverlapMatrix.Vertex.C176_swap_violated"
   ],
   "note": "Proved for grids distributed by cells, whose rows belong to one process.  Violated for vertices shared by processes: the master takes over entries of its peers (C176_swap_violated).  Nothing in the repository calls assignCopy.  Values are scalars instead of blocks."
  },
  {
   "property": "C177",
   "status": "partial",
   "theorems": [
    "Verif.ParSolve.Vertex.C177_solve_partial",
    "Verif.ParSolve.Vertex.C177_exists",
    "Verif.ParSolve.Vertex.C177_order_violated"
   ],
   "note": "Proved for the Jacobi preconditioner with at most as many sweeps as the overlap has layers, and at least one layer.  Without an overlap the operator is not the matrix of the whole grid (C175_apply_violated); with the default order of zero the solver breaks down in its first iteration, on one process as on several (C177_order_violated).  Other preconditioners work on the parts of the processes, so their iterations depend on the partition by design.  Ghost vertices have the largest indices (see C142_ghost_violated for others).  Blocks are scalars."
  },
  {
   "property": "C178",
   "status": "partial",
   "theorems": [
    "Verif.BlackOil.C178_read",
    "Verif.BlackOil.C178_assign",
    "Verif.BlackOil.C178_switch_partial",
    "Verif.BlackOil.C178_iteration_partial",
    "Verif.BlackOil.C178_iterations_partial",
    "Verif.BlackOil.C178_limits_violated",
    "Verif.BlackOil.C178_solvent_violated"
   ],
   "note": "C178_read and C178_assign hold without restriction; switching needs that solvent does not dissolve in water, Newton iterations also that the limits PressureMin/PressureMax do not matter. The negations for these cases are proved (C178_solvent_violated: the solubility is evaluated at the scaled pressure; C178_limits_violated: the limits are applied to the scaled variable). Linear systems are solved exactly; automatic differentiation, not finite differences."
  },
  {
   "property": "C179",
   "status": "partial",
   "theorems": [
    "Verif.ParSolve.Block.C179_solve_partial",
    "Verif.ParSolve.Block.C179_exists",
    "Verif.ParSolve.Block.C179_order_violated"
   ],
   "note": "Proved for the block Jacobi preconditioner with as many sweeps as the overlap is wide enough for.  With the default order of zero the solver breaks down in its first iteration (C179_order_violated).  Other preconditioners work on the parts of the processes, so their iterations depend on the partition by design.  Diagonal blocks which cannot be inverted make the solver throw in reality; here their inverse is taken as zero."
  },
  {
   "property": "C180",
   "status": "partial",
   "theorems": [
    "Verif.Vtk.Faces.C180_order",
    "Verif.Vtk.Faces.C180_distribution_partial",
    "Verif.Vtk.Faces.C180_distribution_violated",
    "Verif.Vtk.Faces.C180_gradient",
    "Verif.Vtk.Faces.C180_threads_partial",
    "Verif.Vtk.Faces.C180_threads_violated",
    "Verif.Vtk.Faces.C180_no_fracture",
    "Verif.Vtk.Faces.C180_fracture_partial",
    "Verif.Vtk.Faces.C180_fracture_violated"
   ],
   "note": "Order of elements: proved for all.  Threads: proved for degrees of freedom whose faces are all visited by one thread; violated otherwise, because the additions are not protected (C180_threads_violated: a uniform flow of velocity 1 is shown as 1/2).  Processes: proved for cells all of whose neighbours are own ones, and for gradients of all own cells; violated at borders, where faces are counted from one side only (C180_distribution_violated).  Fractures: proved for extrusion factors of at least 1e-4, violated for smaller ones.  One phase and one component of the vector at a time, exact numbers."
  },
  {
   "property": "C181",
   "status": "proved",
   "theorems": [
    "Verif.ParRest.C181_stays",
    "Verif.ParRest.C181_first_attempt"
   ],
   "note": "C181_stays: own cells of all processes keep their values on both time levels after any number of steps of the time loop; C181_first_attempt: if the equations can be evaluated, each time integration succeeds at the first attempt with its own time step size. The linear solver is the modelled BiCGStab on overlapping matrices, not an assumption. Example: diffusion with a second, nonlinear equation per cell on three processes."
  },
  {
   "property": "C182",
   "status": "partial",
   "theorems": [
    "Verif.ParCache.C182_cached_partial",
    "Verif.ParCache.C182_violated"
   ],
   "note": "Proved for runs in which no time step succeeds in exactly one Newton iteration.  Otherwise violated (C182_violated: diffusion with a sink on three processes; after a first step of one iteration the copies are stale, syncOverlap refreshes them in the next step, but the stored intensive quantities of the copies stay valid, the residual is too large and the simulation is given up, while without the cache three processes do what one does)."
  },
  {
   "property": "C183",
   "status": "partial",
   "theorems": [
    "Verif.ParRestart.C183_names",
    "Verif.ParRestart.C183_rejected",
    "Verif.ParRestart.C183_files",
    "Verif.ParRestart.C183_none",
    "Verif.ParRestart.C183_continues_partial",
    "Verif.ParRestart.C183_memory_violated"
   ],
   "note": "C183_names, C183_rejected, C183_none, C183_files: names, cookies and contents of the files, whatever the order of writing is.  C183_continues_partial: the new processes do what the old ones would have done, under the assumptions which the library does not ensure: same time step size (C166_size_violated), no episode ended before the files were written (C166_episode_violated), and the Newton method may do two iterations (C183_memory_violated: with one, the error of the previous time step decides about a second one, and it is not in the files).  Files are written in one go, the problem restores its own state, exact numbers."
  },
  {
   "property": "C184",
   "status": "partial",
   "theorems": [
    "Verif.Hybrid.C184_performs",
    "Verif.Hybrid.C184_one",
    "Verif.Hybrid.C184_simulation_partial",
    "Verif.Hybrid.C184_any_two",
    "Verif.Hybrid.C184_balance_partial",
    "Verif.Hybrid.C184_exists",
    "Verif.Hybrid.C184_cached_partial",
    "Verif.Hybrid.C184_continues_partial",
    "Verif.Hybrid.C184_constraints_partial"
   ],
   "note": "C184_performs: the rows of own cells which a process assembles, whichever linearizer it uses and however its threads are scheduled, are those of the equations of the whole grid; hence everything which is proved of simulations on several processes (C162, C169, C181, C183) holds with threads.  C184_one: on one process with the whole grid.  C184_simulation_partial, C184_any_two, C184_balance_partial, C184_exists.  C184_cached_partial: with cached intensive quantities.  C184_continues_partial: restarts with another linearizer and other numbers of threads.  C184_constraints_partial: with constraints (without caches).  Missing: auxiliary equations, constraints together with caches, rounding errors."
  },
  {
   "property": "C185",
   "status": "partial",
   "theorems": [
    "Verif.Reservoir.C185_numbering_violated",
    "Verif.Reservoir.C185_exists",
    "Verif.Reservoir.C185_fluxes",
    "Verif.Reservoir.C185_storage",
    "Verif.Reservoir.C185_opposite",
    "Verif.Reservoir.C185_residual",
    "Verif.Reservoir.C185_derivatives_partial",
    "Verif.Reservoir.C185_simulation_partial",
    "Verif.Reservoir.C185_balance_partial"
   ],
   "note": "C185_fluxes, C185_storage, C185_opposite, C185_residual: values, for any numbering.  C185_derivatives_partial: derivatives agree for any two numberings where no phase is in balance between two cells of the same volume; otherwise violated (C185_numbering_violated: the upstream cell is the one with the lower local index, so that Newton iterations depend on the numbering).  C185_simulation_partial: same simulation on several processes, if owners have neighbouring cells of the same volume in the same order as the single process.  C185_balance_partial: balances of components and energy, for any order.  C185_exists.  Missing: diffusion, dispersion and convective mixing, threshold pressures, calculatePhasePressureDiff_ which is not in this repository (taken from transfluxmodule.hh), rounding errors."
  },
  {
   "property": "C186",
   "status": "partial",
   "theorems": [
    "Verif.ConstraintMap.C186_collected_partial",
    "Verif.ConstraintMap.C186_same_partial",
    "Verif.ConstraintMap.C186_one_thread",
    "Verif.ConstraintMap.C186_one_element",
    "Verif.ConstraintMap.C186_race_violated"
   ],
   "note": "Proved for all runs of any number of threads without data races; there are none with one thread, or if at most one element has constraints. Violated in all other cases: threads insert into one std::map without a lock, so with two threads and two elements with constraints some schedule has a data race (undefined behaviour)."
  },
  {
   "property": "C187",
   "status": "partial",
   "theorems": [
    "Verif.MassCons.C187_blackoil_equilibrium",
    "Verif.MassCons.C187_blackoil_partial",
    "Verif.MassCons.C187_blackoil_violated",
    "Verif.MassCons.C187_immiscible_partial",
    "Verif.MassCons.C187_immiscible_equilibrium",
    "Verif.MassCons.C187_ncp_partial",
    "Verif.MassCons.C187_ncp_equilibrium",
    "Verif.MassCons.C187_flash",
    "Verif.MassCons.C187_temperature_violated",
    "Verif.MassCons.C187_density_violated",
    "Verif.MassCons.C187_equilibrium_violated",
    "Verif.MassCons.C187_ptflash_violated",
    "Verif.MassCons.C187_pvs_partial",
    "Verif.MassCons.C187_pvs_equilibrium"
   ],
   "note": "Proved for the immiscible, NCP, PVS and flash models, relative to contracts of the solvers of opm-material (the flash finds an equilibrium with the given amounts; compositions are determined by fugacities, or by fugacities and as many conditions as components), for states with the densities of the fluid system. Violated: without energy equation if the temperature is not the one of the problem (C187_temperature_violated), if the densities of the state are not those of the fluid system (C187_density_violated), for states wrongly said to be in equilibrium (C187_equilibrium_violated) and for the flash model with pressure and temperature, which stores no amounts (C187_ptflash_violated). The black-oil model (C187_blackoil_partial, amounts as volumes at the surface) without brine, solvents and the extended module; violated for oil and water without gas if gas dissolves in water (C187_blackoil_violated: the oil is lost). Not covered: the Richards model, and the energy equation of the NCP and PVS models."
  },
  {
   "property": "C188",
   "status": "partial",
   "theorems": [
    "Verif.Retry.C188_retry_partial",
    "Verif.Retry.C188_untouched",
    "Verif.Retry.C188_prescribed",
    "Verif.Retry.C188_violated",
    "Verif.Retry.C188_gave_up_violated"
   ],
   "note": "C188_retry_partial, C188_prescribed: proved if whatever is constrained for a step is constrained for all smaller ones (for example if the set of constrained degrees of freedom does not depend on time).  C188_untouched: degrees of freedom which are never constrained, without conditions.  Violated for constraints which begin between the end of the step which is made and the end of a failed attempt (C188_violated), and if all attempts fail (C188_gave_up_violated), because constraints are also written into the solution of the previous time level.  The Newton method is a function of the time step size and both solutions; that it remembers errors of earlier calls is C183."
  }
 ]
}