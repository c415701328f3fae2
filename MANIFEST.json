{
 "claims": [
  {
   "property": "C01",
   "status": "proved",
   "theorems": [
    "Verif.Invar.combine_is_composition",
    "Verif.Invar.combine_comm",
    "Verif.Invar.combine_assoc",
    "Verif.Invar.combine_neutral",
    "Verif.Invar.combine_inverse",
    "Verif.Invar.combine_rejects_invalid",
    "Verif.Invar.get_spec",
    "Verif.Invar.get_sane"
   ],
   "note": "All type lists, all labels."
  },
  {
   "property": "C02",
   "status": "proved",
   "theorems": [
    "Verif.Symm.ancestors_newSubspaces_dual",
    "Verif.Symm.ancestor_eq_ancestors",
    "Verif.Symm.builtins_wellFormed"
   ],
   "note": ""
  },
  {
   "property": "C03",
   "status": "proved",
   "theorems": [
    "Verif.Symm.su2Triangle_spec",
    "Verif.Symm.su2Triangle_symm",
    "Verif.Symm.su2Triangle_rejects",
    "Verif.Symm.u1Equality_spec",
    "Verif.Symm.z2Equality_spec",
    "Verif.Symm.c3Equality_spec",
    "Verif.Symm.builtin_triangle_spec",
    "Verif.Symm.builtin_triangle_trivial",
    "Verif.Symm.builtin_names_distinct"
   ],
   "note": ""
  },
  {
   "property": "C04",
   "status": "proved",
   "theorems": [
    "Verif.Symm.builtin_tables_count",
    "Verif.Symm.allowed_physical"
   ],
   "note": "All 51 shipped tables; labels of actual multiplets, unbounded charge and spin."
  },
  {
   "property": "C05",
   "status": "proved",
   "theorems": [
    "Verif.Symm.structure_complete",
    "Verif.Symm.fullSteps_count"
   ],
   "note": "One step and, without truncation, any number of steps."
  },
  {
   "property": "C06",
   "status": "proved",
   "theorems": [
    "Verif.Subspaces.blocks_tile",
    "Verif.Subspaces.blocks_consecutive",
    "Verif.Subspaces.accessors_agree",
    "Verif.Subspaces.accessors_reject",
    "Verif.Subspaces.offdiagContributes_spec",
    "Verif.Subspaces.diagonal_filled"
   ],
   "note": ""
  },
  {
   "property": "C07",
   "status": "proved",
   "theorems": [
    "Verif.Subspaces.tasks_complete",
    "Verif.Subspaces.tasks_sorted"
   ],
   "note": ""
  },
  {
   "property": "C08",
   "status": "proved",
   "theorems": [
    "Verif.Trunc.kept_iff_below_cutoff",
    "Verif.Trunc.kept_below_discarded",
    "Verif.Trunc.kept_discarded_partition"
   ],
   "note": ""
  },
  {
   "property": "C09",
   "status": "proved",
   "theorems": [
    "Verif.Trunc.cutoff_spec",
    "Verif.Trunc.cutoff_rejects",
    "Verif.Trunc.total_kept"
   ],
   "note": "keep >= 1 and keepmin <= keep are enforced by parameter validation (the latter when keepenergy > 0)."
  },
  {
   "property": "C10",
   "status": "partial",
   "theorems": [
    "Verif.Trunc.retry_terminates",
    "Verif.Trunc.last_step_keeps_all",
    "Verif.Trunc.complete_never_notEnough",
    "Verif.Trunc.retry_diverges_without_growth",
    "Verif.Trunc.retry_diverges_on_checkpoint"
   ],
   "note": "Termination proved for restartfactor > 1 and computed steps; the code does not validate restartfactor and loops for ever on an insufficient checkpoint (both negations proved)."
  },
  {
   "property": "C11",
   "status": "proved",
   "theorems": [
    "Verif.Trunc.fixSplittings_spec",
    "Verif.Trunc.fixSplittings_sorted"
   ],
   "note": ""
  },
  {
   "property": "C12",
   "status": "proved",
   "theorems": [
    "Verif.Trunc.sort_by_cost_permutes_states",
    "Verif.Trunc.sort_eigenpairs_as_units"
   ],
   "note": ""
  },
  {
   "property": "C13",
   "status": "proved",
   "theorems": [
    "Verif.Store.eig_roundtrip",
    "Verif.Store.diag_roundtrip",
    "Verif.Store.rho_roundtrip",
    "Verif.Store.saveRho_injective",
    "Verif.Store.truncated_not_accepted"
   ],
   "note": "Up to c_shift, a diagnostic member that is not stored."
  },
  {
   "property": "C14",
   "status": "proved",
   "theorems": [
    "Verif.Store.save_atomic",
    "Verif.Store.save_can_succeed",
    "Verif.Store.checkpoints_always_complete"
   ],
   "note": "Assumes atomic rename; loss of flushed data in a power failure is not modelled."
  },
  {
   "property": "C15",
   "status": "proved",
   "theorems": [
    "Verif.Store.load_all_or_nothing",
    "Verif.Store.decoders_mono",
    "Verif.Store.load_after_save",
    "Verif.Store.truncated_not_accepted"
   ],
   "note": ""
  },
  {
   "property": "C16",
   "status": "proved",
   "theorems": [
    "Verif.Sched.matrix_transfer",
    "Verif.Sched.result_transfer",
    "Verif.Sched.pieces_are_rows",
    "Verif.Sched.worker_answers"
   ],
   "note": "Matrices of any shape; MPI point-to-point ordering assumed."
  },
  {
   "property": "C17",
   "status": "proved",
   "theorems": [
    "Verif.Sched.mpi_each_task_once",
    "Verif.Sched.mpi_result",
    "Verif.Sched.mpi_result_lookup",
    "Verif.Sched.mpi_no_deadlock",
    "Verif.Sched.mpi_terminates",
    "Verif.Sched.mpi_sizes"
   ],
   "note": "All interleavings, any number of nodes and tasks."
  },
  {
   "property": "C18",
   "status": "proved",
   "theorems": [
    "Verif.Sched.omp_result",
    "Verif.Sched.omp_progress",
    "Verif.Sched.omp_terminates"
   ],
   "note": "Critical section assumed atomic."
  },
  {
   "property": "C19",
   "status": "proved",
   "theorems": [
    "Verif.Param.parseBlock_spec",
    "Verif.Param.settings_determined",
    "Verif.Param.lookup_setting",
    "Verif.Param.comments_ignored",
    "Verif.Param.order_irrelevant",
    "Verif.Param.notFound_iff",
    "Verif.Param.write_read",
    "Verif.Param.insignificant_iff",
    "Verif.Param.nextline_spec"
   ],
   "note": ""
  },
  {
   "property": "C20",
   "status": "proved",
   "theorems": [
    "Verif.Config.second_sweep_on",
    "Verif.Config.second_sweep_iff",
    "Verif.Config.recalc_exclusive",
    "Verif.Config.complete_basis_algorithms",
    "Verif.Config.keepAllLast_iff"
   ],
   "note": ""
  },
  {
   "property": "C21",
   "status": "proved",
   "theorems": [
    "Verif.Config.columns_distinct",
    "Verif.Config.columns_onto",
    "Verif.Config.tables_read",
    "Verif.Config.tables_set"
   ],
   "note": ""
  },
  {
   "property": "C22",
   "status": "proved",
   "theorems": [
    "Verif.Config.scale_pos",
    "Verif.Config.stepFactor_gt_one",
    "Verif.Config.scale_geometric",
    "Verif.Config.scale_decreasing",
    "Verif.Config.scale_closed_form",
    "Verif.Config.substeps_per_site",
    "Verif.Config.twist_period",
    "Verif.Config.scale_unscale"
   ],
   "note": "Over the reals."
  },
  {
   "property": "C23",
   "status": "proved",
   "theorems": [
    "Verif.Config.visits_every_step",
    "Verif.Config.site_channel_bijection",
    "Verif.Config.before_first"
   ],
   "note": ""
  },
  {
   "property": "C24",
   "status": "proved",
   "theorems": [
    "Verif.Thermo.energies_consistent",
    "Verif.Thermo.second_sweep_same"
   ],
   "note": ""
  },
  {
   "property": "C25",
   "status": "proved",
   "theorems": [
    "Verif.Thermo.fdm_weights",
    "Verif.Thermo.complete_basis_count",
    "Verif.Thermo.sweep_consistent"
   ],
   "note": ""
  },
  {
   "property": "C26",
   "status": "proved",
   "theorems": [
    "Verif.Dm.dmStep_trace",
    "Verif.Dm.dmStep_nonneg",
    "Verif.Dm.dmSweep_trace",
    "Verif.Dm.dmSweep_nonneg",
    "Verif.Dm.fdm_hermitian_nonneg"
   ],
   "note": "Exact arithmetic over real or complex numbers; without resume."
  },
  {
   "property": "C27",
   "status": "proved",
   "theorems": [
    "Verif.Dm.fdm_trace",
    "Verif.Dm.fdm_trace_run",
    "Verif.Dm.fdm_total_one"
   ],
   "note": "Exact arithmetic; all states of a subspace computed."
  },
  {
   "property": "C28",
   "status": "proved",
   "theorems": [
    "Verif.Thermo.init_rho_normalised"
   ],
   "note": ""
  },
  {
   "property": "C29",
   "status": "proved",
   "theorems": [
    "Verif.Spectral.fdmPairs_spec",
    "Verif.Spectral.fdmGt_spec",
    "Verif.Spectral.fdmLs_spec",
    "Verif.Spectral.fdm_eq",
    "Verif.Spectral.both_is_sum",
    "Verif.Spectral.stepOne_total",
    "Verif.Spectral.fdmMats_spec",
    "Verif.Spectral.fdmMats_fails_iff",
    "Verif.Spectral.matsTerm_degenerate",
    "Verif.Spectral.mats_degenerate_limit"
   ],
   "note": "Real and imaginary frequencies. fdmMats_fails_iff: the bosonic zero-frequency value is a division by zero when a kept and a discarded state are degenerate."
  },
  {
   "property": "C30",
   "status": "proved",
   "theorems": [
    "Verif.Spectral.cfs_intermediate",
    "Verif.Spectral.cfs_last",
    "Verif.Spectral.cfs_eq",
    "Verif.Spectral.both_is_sum"
   ],
   "note": ""
  },
  {
   "property": "C31",
   "status": "proved",
   "theorems": [
    "Verif.Spectral.addStd_split",
    "Verif.Spectral.addStd_position",
    "Verif.Spectral.addStd_all",
    "Verif.Spectral.setLimits_good",
    "Verif.Spectral.loggridStd_spec",
    "Verif.Spectral.addAcc_spec",
    "Verif.Spectral.addAcc_energies",
    "Verif.Spectral.addAcc_outside",
    "Verif.Spectral.loggridAcc_spec",
    "Verif.Spectral.addBins_total",
    "Verif.Spectral.chainAdd_spec"
   ],
   "note": "With the accumulation grid, weight outside the grid is dropped (addAcc_outside, negation of conservation there)."
  },
  {
   "property": "C32",
   "status": "proved",
   "theorems": [
    "Verif.Spectral.mergeBins_isSome",
    "Verif.Spectral.mergeBins_spec",
    "Verif.Spectral.mergeBins_comm",
    "Verif.Spectral.mergeBins_assoc",
    "Verif.Spectral.mergeCFS_total",
    "Verif.Spectral.merge_of_binned",
    "Verif.Spectral.merge_zero",
    "Verif.Spectral.trimBins_spec",
    "Verif.Spectral.trimBins_loss"
   ],
   "note": ""
  },
  {
   "property": "C33",
   "status": "partial",
   "theorems": [
    "Verif.Spectral.patch_partition_NN1",
    "Verif.Spectral.patch_partition_NN2",
    "Verif.Spectral.patch_partition_avg",
    "Verif.Spectral.patch_gap",
    "Verif.Spectral.patch_absolute",
    "Verif.Spectral.windowFunction_isSome",
    "Verif.Spectral.patchAll_same"
   ],
   "note": "Proved for N/N+1 patching, and for N/N+2 and averaged N/N+2 with one channel; for several channels with neither option the windows leave gaps and with absolute energies all steps share one window (negations proved)."
  },
  {
   "property": "C34",
   "status": "proved",
   "theorems": [
    "Verif.Spectral.makeMesh_spec"
   ],
   "note": ""
  },
  {
   "property": "C35",
   "status": "proved",
   "theorems": [
    "Verif.Spectral.addValue_spec",
    "Verif.Spectral.addValue_perm"
   ],
   "note": ""
  },
  {
   "property": "C36",
   "status": "proved",
   "theorems": [
    "Verif.Spectral.matsNew_spec",
    "Verif.Spectral.matsMerge_eq",
    "Verif.Spectral.matsMerge_same_grid"
   ],
   "note": ""
  },
  {
   "property": "C37",
   "status": "proved",
   "theorems": [
    "Verif.Ops.splitInBlocks_holds",
    "Verif.Ops.truncate_holds",
    "Verif.Ops.recalcGeneral_conjugates",
    "Verif.Ops.recalcGeneral_uncoupled",
    "Verif.Ops.recalcSinglet_identity",
    "Verif.Ops.recalcGeneral_linear",
    "Verif.Ops.recalc_then_trim",
    "Verif.Ops.recalcF_conjugates",
    "Verif.Ops.recalcGlobal_conjugates"
   ],
   "note": "Exact arithmetic; odd-parity singlets always throw (C02) and the CUDA path is not modelled."
  },
  {
   "property": "C38",
   "status": "proved",
   "theorems": [
    "Verif.Mat.prodFit_spec",
    "Verif.Mat.prodFitLeft_right_spec",
    "Verif.Mat.prodAdjFitLeft_spec",
    "Verif.Mat.trim_spec",
    "Verif.Mat.submatrix_spec",
    "Verif.Mat.product_spec",
    "Verif.Mat.transform_spec",
    "Verif.Mat.rotate_spec",
    "Verif.Mat.rotateDiagonal_eq_rotate",
    "Verif.Mat.traceContract_spec"
   ],
   "note": "Exact arithmetic; the CUDA backend is not modelled."
  },
  {
   "property": "C39",
   "status": "partial",
   "theorems": [
    "Verif.Invar.invertParity_always_throws",
    "Verif.Invar.invertParity_not_involution",
    "Verif.Invar.invertMyParity_involution_partial"
   ],
   "note": "The property fails: InvertParity always throws for a non-empty label. Negation proved."
  },
  {
   "property": "C40",
   "status": "proved",
   "theorems": [
    "Verif.Invar.lt_irrefl",
    "Verif.Invar.lt_trans",
    "Verif.Invar.lt_total",
    "Verif.Text.label_text_roundtrip",
    "Verif.Text.label_names_distinct"
   ],
   "note": ""
  },
  {
   "property": "C41",
   "status": "proved",
   "theorems": [
    "Verif.Out.addMany_spec",
    "Verif.Out.set_spec",
    "Verif.Out.setAll_values",
    "Verif.Out.td_file",
    "Verif.Out.tdfdm_row",
    "Verif.Out.row_words",
    "Verif.Out.cell_position"
   ],
   "note": ""
  },
  {
   "property": "C42",
   "status": "proved",
   "theorems": [
    "Verif.Out.seznam_spec",
    "Verif.Out.fcmp_zero_of_between",
    "Verif.Out.extend_spec",
    "Verif.Out.listed_spec",
    "Verif.Out.groups_spec",
    "Verif.Out.groups_next",
    "Verif.Out.dump_spec",
    "Verif.Out.scaledEnergy_mono"
   ],
   "note": ""
  },
  {
   "property": "C43",
   "status": "proved",
   "theorems": [
    "Verif.Tools.linEval_spec",
    "Verif.Tools.IsInterp.unique",
    "Verif.Tools.history_irrelevant",
    "Verif.Tools.trapez_spec",
    "Verif.Tools.intEval_spec",
    "Verif.Tools.trapez_integral",
    "Verif.Tools.intEval_integral",
    "Verif.Tools.interp_exists",
    "Verif.Tools.trapezAb_all",
    "Verif.Tools.trapezAb_cut_wrong"
   ],
   "note": "Exact arithmetic. trapezAb_cut_wrong: the clipped integral used for the printed estimate is wrong when the limit falls inside an interval."
  },
  {
   "property": "C44",
   "status": "proved",
   "theorems": [
    "Verif.Tools.chain_tridiagonal",
    "Verif.Tools.chain_stop",
    "Verif.Tools.chain_length"
   ],
   "note": "Exact arithmetic; the multiple-precision rounding is not modelled."
  },
  {
   "property": "C45",
   "status": "proved",
   "theorems": [
    "Verif.Tools.star_weights",
    "Verif.Tools.star_normalised",
    "Verif.Tools.epsMesh_antitone",
    "Verif.Tools.star_normalised_standard",
    "Verif.Tools.star_nan_not_rejected"
   ],
   "note": "Exact arithmetic. star_nan_not_rejected: a negative interval weight gives NaN couplings that pass the checksum test."
  },
  {
   "property": "C46",
   "status": "proved",
   "theorems": [
    "Verif.Tools.merge_spec",
    "Verif.Tools.merge_order",
    "Verif.Tools.points_spec",
    "Verif.Tools.load_incomplete",
    "Verif.Tools.increasing_ext"
   ],
   "note": ""
  },
  {
   "property": "C47",
   "status": "proved",
   "theorems": [
    "Verif.Tools.cumulative_spec",
    "Verif.Tools.cumulative_mono"
   ],
   "note": ""
  },
  {
   "property": "C48",
   "status": "proved",
   "theorems": [
    "Verif.Inst.evaluates",
    "Verif.Inst.trailing_rejected",
    "Verif.Inst.matrix_form",
    "Verif.Inst.row_form",
    "Verif.Inst.scalar_form",
    "Verif.Inst.accepted_is_rectangle",
    "Verif.Inst.printable_text",
    "Verif.Inst.escapes",
    "Verif.Inst.never_out_of_fuel",
    "Verif.Inst.decimal_ok",
    "Verif.Inst.decimal_exponent",
    "Verif.Inst.chain_functions",
    "Verif.Inst.channel_out_of_range"
   ],
   "note": "Exact arithmetic; strtod is modelled for decimal notation; sqrt, exp, log are uninterpreted."
  },
  {
   "property": "C49",
   "status": "proved",
   "theorems": [
    "Verif.Config.stages_in_order",
    "Verif.Config.done_iff_complete",
    "Verif.Config.measured_exactly_once",
    "Verif.Config.done_means_all_measured"
   ],
   "note": "Failures at any action; without resume."
  },
  {
   "property": "C50",
   "status": "proved",
   "theorems": [
    "Verif.Thermo.fdm_heat_capacity_nonneg",
    "Verif.Thermo.fdm_thermodynamics_exact",
    "Verif.Thermo.td_canonical"
   ],
   "note": ""
  },
  {
   "property": "C51",
   "status": "proved",
   "theorems": [
    "Verif.Spin.td_moments",
    "Verif.Spin.td_subjects",
    "Verif.Spin.spinSq_mean"
   ],
   "note": "All columns of all classes except the fluctuation columns of SL and SL3, which are differences of two of these columns."
  },
  {
   "property": "C52",
   "status": "partial",
   "theorems": [
    "Verif.Spin.doublet_factors_exact",
    "Verif.Spin.triplet_factors_exact",
    "Verif.Spin.degeneracy_factors_QSC3",
    "Verif.Spin.degeneracy_sum_rule_partial",
    "Verif.Spin.doublet_factors_reject_partial",
    "Verif.Spin.sqQJ_rejects_partial",
    "Verif.Spin.dblsu2_not_sumRule",
    "Verif.Spin.qst_susceptibility_not_sumRule",
    "Verif.Spin.spsu2t_susceptibility_not_sumRule",
    "Verif.Spin.spsu2lr_always_throws",
    "Verif.Spin.unchecked_not_rejects",
    "Verif.Spin.singlets_not_rejected"
   ],
   "note": "Exactness and sum rule hold in all classes except DBLSU2, the susceptibilities of QST and SPSU2T, and SPSU2LR, for which the negation is proved; rejection holds in six classes and fails in the classes listed in unchecked_not_rejects and singlets_not_rejected (negations proved)."
  },
  {
   "property": "C53",
   "status": "proved",
   "theorems": [
    "Verif.Num.chitWeight_exact",
    "Verif.Num.chitWeight_accurate",
    "Verif.Num.chitWeight_symm_approx",
    "Verif.Num.chitWeight_not_symm",
    "Verif.Num.kernel_symm",
    "Verif.Num.kernel_pos",
    "Verif.Num.kernel_between"
   ],
   "note": "Exact symmetry fails inside the degenerate window (negation proved); there it holds to the stated relative accuracy."
  },
  {
   "property": "C54",
   "status": "proved",
   "theorems": [
    "Verif.Num.fcmp_antisymm",
    "Verif.Num.fcmp_refl",
    "Verif.Num.fcmp_neg",
    "Verif.Num.fcmp_eq_zero",
    "Verif.Num.fcmp_sign",
    "Verif.Num.numEqual_iff",
    "Verif.Num.numEqual_self",
    "Verif.Num.fcmp_not_transitive",
    "Verif.Num.chop_spec"
   ],
   "note": ""
  },
  {
   "property": "C55",
   "status": "proved",
   "theorems": [
    "Verif.Text.memory_figure",
    "Verif.Text.memory_value"
   ],
   "note": ""
  },
  {
   "property": "C56",
   "status": "partial",
   "theorems": [
    "Verif.Text.lastStored_partial",
    "Verif.Text.resume_never_finds",
    "Verif.Text.lastStored_gap",
    "Verif.Text.usesStored_partial"
   ],
   "note": "The property fails: the search runs while Nmax is 0, so nothing is ever found (negation proved), and a gap in the stored steps is not noticed (negation proved). The search itself is right for gap-free files once Nmax is known."
  },
  {
   "property": "C57",
   "status": "proved",
   "theorems": [
    "Verif.Hop.hops_connected",
    "Verif.Hop.hams_cover",
    "Verif.Hop.hops_distinct",
    "Verif.Hop.occupations_complete",
    "Verif.Hop.occupations_match_charge",
    "Verif.Hop.occupations_match_channel_charge"
   ],
   "note": "All 51 built-in classes, tables generated from the sources. Numerical factors of the entries are not part of this property."
  },
  {
   "property": "C58",
   "status": "proved",
   "theorems": [
    "Verif.Tools.tdLoad_spec",
    "Verif.Tools.tdLoad_rejects",
    "Verif.Tools.readFiles_spec",
    "Verif.Tools.readFiles_empty",
    "Verif.Tools.mesh_spec",
    "Verif.Tools.mesh_exact",
    "Verif.Tools.tdavg_spec",
    "Verif.Tools.tdavg_ref_spec",
    "Verif.Tools.interpolates_exists",
    "Verif.Tools.intavg_spec",
    "Verif.Tools.tdLoad_ragged",
    "Verif.Tools.mesh_zero_repeated",
    "Verif.Tools.intavg_unordered"
   ],
   "note": "Exact arithmetic; data blocks without repeated temperatures. Violations outside these hypotheses are shown by witnesses: a leading line without columns is accepted, zero is repeated in the mesh, intavg does not sort."
  },
  {
   "property": "C59",
   "status": "partial",
   "theorems": [
    "Verif.Tools.Hilb.hilbert_direct",
    "Verif.Tools.Hilb.hilbert_outside",
    "Verif.Tools.Hilb.hilbert_inside",
    "Verif.Tools.Hilb.hilbert_inside_error",
    "Verif.Tools.Hilb.hilbert_edge_wrong",
    "Verif.Tools.Hilb.bethe_edge_wrong",
    "Verif.Tools.Hilb.interpolated_onBand",
    "Verif.Tools.Hilb.bethe_onBand",
    "Verif.Tools.Hilb.hilbArg_spec"
   ],
   "note": "Exact integrals in place of the adaptive quadrature. Proved for arguments off the band edges (inside the band up to the cutoff, with a bound); violated at the edges, where no integral is evaluated."
  },
  {
   "property": "C60",
   "status": "proved",
   "theorems": [
    "Verif.Trunc.nrEigenpairs_spec",
    "Verif.Trunc.nrEigenpairs_mono"
   ],
   "note": ""
  },
  {
   "property": "C61",
   "status": "partial",
   "theorems": [
    "Verif.Trunc.partial_diag_same_cutoff_partial",
    "Verif.Trunc.partial_diag_misses_states"
   ],
   "note": "Holds when more states were computed than requested (no energy cutoff, no safeguard); fails otherwise, negation proved."
  },
  {
   "property": "C62",
   "status": "proved",
   "theorems": [
    "Verif.Diag.prepare_data",
    "Verif.Diag.lapack_sees_transpose",
    "Verif.Diag.diagonalise_spec",
    "Verif.Diag.hermitianOfUpper_hermitian"
   ],
   "note": "LAPACK is a hypothesis (its documented contract); exact arithmetic."
  },
  {
   "property": "C63",
   "status": "proved",
   "theorems": [
    "Verif.Text.store_names_distinct",
    "Verif.Text.tmp_names_distinct"
   ],
   "note": ""
  },
  {
   "property": "C64",
   "status": "partial",
   "theorems": [
    "Verif.Param.line_without_eq_dropped",
    "Verif.Param.applyAll_partial"
   ],
   "note": "Fails for lines without '=' (negation proved); proved for key=value lines."
  },
  {
   "property": "C65",
   "status": "proved",
   "theorems": [
    "Verif.Text.keepall_spec",
    "Verif.Text.keepall_space_ignored"
   ],
   "note": "Items with spaces are ignored, as the second theorem states."
  },
  {
   "property": "C66",
   "status": "proved",
   "theorems": [
    "Verif.Param.bool_spellings"
   ],
   "note": ""
  },
  {
   "property": "C67",
   "status": "proved",
   "theorems": [
    "Verif.Num.sigmoid_spec",
    "Verif.Num.sigmoid_range",
    "Verif.Num.bose_spec",
    "Verif.Num.bose_infinite",
    "Verif.Num.fermiFnc_spec"
   ],
   "note": ""
  },
  {
   "property": "C68",
   "status": "proved",
   "theorems": [
    "Verif.Config.files_available",
    "Verif.Config.stops_only_on_fault"
   ],
   "note": "Without resume; one diagonalisation attempt per step in the second sweep."
  },
  {
   "property": "C69",
   "status": "proved",
   "theorems": [
    "Verif.Diag.minWork_documented",
    "Verif.Diag.selectWork_spec"
   ],
   "note": "32-bit LAPACK integers, 64-bit size_t."
  },
  {
   "property": "C70",
   "status": "partial",
   "theorems": [
    "Verif.Spectral.cfs_total",
    "Verif.Spectral.fdm_total",
    "Verif.Spectral.cfs_fermion_partial",
    "Verif.Spectral.cfs_boson_sign"
   ],
   "note": "Holds for fermionic operators; for bosonic operators the sign is opposite (negation proved)."
  },
  {
   "property": "C71",
   "status": "partial",
   "theorems": [
    "Verif.Spectral.dmnrg_total",
    "Verif.Spectral.dmnrg_symmetric_partial",
    "Verif.Spectral.dmnrg_complex_wrong",
    "Verif.Spectral.dmnrg_window"
   ],
   "note": "Holds for symmetric (real) density matrices; complex Hermitian ones are used transposed (negation proved)."
  },
  {
   "property": "C72",
   "status": "proved",
   "theorems": [
    "Verif.Tools.filter_spec",
    "Verif.Tools.centralMoment_spec",
    "Verif.Tools.variance_nonneg"
   ],
   "note": "Exact arithmetic."
  },
  {
   "property": "C73",
   "status": "partial",
   "theorems": [
    "Verif.Hop.make_matrix_complete",
    "Verif.Hop.site_hops_fit",
    "Verif.Hop.recalc_rows_fit",
    "Verif.Hop.qst_hops_partial",
    "Verif.Hop.qj_hop_dropped",
    "Verif.Hop.qj_uncoupled_added",
    "Verif.Hop.qj_out_of_bounds",
    "Verif.Hop.spsu2t_matrix_not_found"
   ],
   "note": "Proved for all built-in classes except QJ, QST and SPSU2T. Violated by QJ (coupling test on shifted indices: entries dropped, uncoupled blocks added, out-of-bounds read) and SPSU2T (matrix not found when both ancestors are orbital singlets), shown by witnesses. For QST proved under the assumption that the factor vanishes for uncoupled ancestors."
  },
  {
   "property": "C74",
   "status": "partial",
   "theorems": [
    "Verif.Hop.hop_moves_one_electron",
    "Verif.Hop.recalc_rows_create_one_electron",
    "Verif.Hop.hop_moves_same_electron",
    "Verif.Hop.u1_nonpolarized_swaps_spin"
   ],
   "note": "Violated by U1 without polarisation (spin labels exchanged), shown by a witness. Where the occupation of one channel or spin is not sharp in the basis (LR classes, polarized SPU1) only the electron number is covered; entries meant to mix channels are excluded."
  },
  {
   "property": "C75",
   "status": "partial",
   "theorems": [
    "Verif.Oper.operator_carried",
    "Verif.Oper.rows_name_ancestors",
    "Verif.Oper.singlet_carried",
    "Verif.Oper.losing_lose",
    "Verif.Oper.unfinished_stop",
    "Verif.Oper.singlet_lost",
    "Verif.Coef.operator_carried_finite",
    "Verif.Coef.qs3_triplet_stops",
    "Verif.Coef.qs4_triplet_stops",
    "Verif.Coef.qstz_triplet_stops",
    "Verif.Coef.spsu2t_triplet_stops"
   ],
   "note": "Violated in seven functions whose operator label can never couple (the operator is lost), in four functions without a case for three channels (the program stops), for singlets of SPSU2LR, and in four triplet functions with a factor that is zero times infinity for spin 1/2 (the run stops); the negations are theorems about every input of that kind. Otherwise proved with the actual factors (operator_carried_finite), except for the QST doublet and the QJ quadruplet, where the factors of the rows used are assumed to be finite."
  },
  {
   "property": "C76",
   "status": "partial",
   "theorems": [
    "Verif.Coef.product_carried_partial",
    "Verif.Coef.tables_orthonormal",
    "Verif.Coef.nothingLost",
    "Verif.Coef.keepsAll_exists"
   ],
   "note": "Proved for all tables that work (C75), for all spins, except two tables whose factors were not evaluated (QST doublet: too expensive; QJ quadruplet: not brought into normal form) and the spins at which four triplet tables have factors that are not finite (C75). Exact arithmetic, with the IEEE rules for zeros, infinities and NaN."
  },
  {
   "property": "C77",
   "status": "proved",
   "theorems": [
    "Verif.Sumrule.fdm_expectation",
    "Verif.Sumrule.fdm_expectation_step",
    "Verif.Sumrule.carriedScalar_exists"
   ],
   "note": "Exact arithmetic. One operator of parity 1 at a time; reading the operators from the data file is outside."
  },
  {
   "property": "C78",
   "status": "partial",
   "theorems": [
    "Verif.Sumrule.fdm_sum_rule_ls_partial",
    "Verif.Sumrule.fdm_sum_rule_measured_partial",
    "Verif.Sumrule.runs_exist"
   ],
   "note": "The lesser part; the greater part would need the corresponding identity for the columns of the recalculation tables. The operator must not have an excluded factor (C75, C76), every subspace is diagonalised completely, and the degeneracy factor must be a constant times the multiplicity of the bra (as shown for QS in C52)."
  },
  {
   "property": "C79",
   "status": "proved",
   "theorems": [
    "Verif.Select.spectra_exactly",
    "Verif.Select.spectra_once",
    "Verif.Select.ops_iff",
    "Verif.Select.spectra_use_carried",
    "Verif.Select.fdm_values_iff"
   ],
   "note": "The matrices of the operators and their recalculation are abstract here (C75, C76 treat them). The evaluation before the first step (calc0) is not included. A requested name that matches no pair of operators, and a value of fdmexpvn outside the sweep, are ignored without a message."
  },
  {
   "property": "C80",
   "status": "partial",
   "theorems": [
    "Verif.Select.files_distinct_partial",
    "Verif.Select.fileName_inj",
    "Verif.Select.files_collide_dash",
    "Verif.Select.files_collide_kinds"
   ],
   "note": "Violated when names of operators contain dashes, and when a name is used for singlet operators of two kinds (negations proved); proved otherwise."
  },
  {
   "property": "C81",
   "status": "proved",
   "theorems": [
    "Verif.DataFile.data_roundtrip",
    "Verif.DataFile.read_consistent",
    "Verif.DataFile.version_checked",
    "Verif.DataFile.negative_count_accepted"
   ],
   "note": "Numbers are exact decimals (rounding to double precision and overflow are not modelled); real matrix elements only. negative_count_accepted records an oddity: a count of -1 is taken as an empty table."
  },
  {
   "property": "C82",
   "status": "partial",
   "theorems": [
    "Verif.DataFile.truncation_detected_partial",
    "Verif.DataFile.truncated_digit_accepted",
    "Verif.DataFile.truncated_blocks_accepted_cpp"
   ],
   "note": "Proved when the chain coefficients are needed and come last, for every prefix that ends before the last number. Violated when the file ends within the last number, and when the coefficients are computed by the program (tri=cpp) and the file ends between blocks (witnesses)."
  },
  {
   "property": "C83",
   "status": "partial",
   "theorems": [
    "Verif.Broad.kernel_normalised_partial",
    "Verif.Broad.broadened_weight_partial",
    "Verif.Broad.kernel_nonneg",
    "Verif.Broad.broadened_nonneg",
    "Verif.Broad.kernel_symmetric",
    "Verif.Broad.main_kernel_agrees",
    "Verif.Broad.final_kernels_normalised",
    "Verif.Broad.final_pass",
    "Verif.Broad.final_pass_value",
    "Verif.Broad.zero_peak_loses_weight",
    "Verif.Broad.accumulation_weight",
    "Verif.Broad.final_pass_not_conserving"
   ],
   "note": "Exact real arithmetic. Weight is conserved with -g, and with -n without accumulation point. Violated otherwise (negations proved): without -n a peak at zero frequency loses weight, with -a > 0 the weight over all energies exceeds that of the peak, and the final convolution does not conserve a constant spectrum because the sum of the kernel is computed but not used."
  },
  {
   "property": "C84",
   "status": "proved",
   "theorems": [
    "Verif.Broad.sumrule_integrals"
   ],
   "note": "Exact real arithmetic."
  },
  {
   "property": "C85",
   "status": "proved",
   "theorems": [
    "Verif.Broad.broaden_merged",
    "Verif.Broad.tool_reproduces_main",
    "Verif.Broad.moments_agree"
   ],
   "note": "Exact real arithmetic; the decimal notation of the numbers in the raw file is not rounded. The mesh values are those the tool builds itself."
  },
  {
   "property": "C86",
   "status": "partial",
   "theorems": [
    "Verif.Kk.kk_principal_value",
    "Verif.Kk.kk_parity",
    "Verif.Kk.kk_edge",
    "Verif.Kk.kk_init",
    "Verif.Kk.kk_accepts",
    "Verif.Kk.kk_program",
    "Verif.Kk.integ_parts",
    "Verif.Kk.integ_fermi",
    "Verif.Kk.kk_std_not_only_result"
   ],
   "note": "Exact real arithmetic; the interpolation is any function continuous on the interval and differentiable at the frequency; the quadrature is the exact integral. Violated: a message is always written to standard output after the result (negation proved)."
  },
  {
   "property": "C87",
   "status": "proved",
   "theorems": [
    "Verif.Mats.mats_merged",
    "Verif.Mats.mats_causal",
    "Verif.Mats.mats_symmetric",
    "Verif.Mats.mats_output"
   ],
   "note": "Exact arithmetic over the complex numbers."
  },
  {
   "property": "C88",
   "status": "partial",
   "theorems": [
    "Verif.Table.readTable_file",
    "Verif.Table.kkRead_file_partial",
    "Verif.Table.loadPairs_file_partial",
    "Verif.Table.loadPairs_blank_refused",
    "Verif.Table.written_read",
    "Verif.Table.loadAbs_spec",
    "Verif.Table.kkRead_comment_loses_data",
    "Verif.Table.loadPairs_takes_text",
    "Verif.Table.readTable_refuses_crlf"
   ],
   "note": "The library reader is correct for every layout; that of kk and integ for comments at the beginning only; that of the discretisation tools for comments in the first column and empty blank lines. The failures of the full statement are proved: kk and integ silently drop everything after a comment that follows a row; adapt and nrgchain take indented comments and words for numbers; the library refuses files with CR LF line ends. Decimal numbers are exact."
  },
  {
   "property": "C89",
   "status": "proved",
   "theorems": [
    "Verif.Adapt.rhsF_value",
    "Verif.Adapt.rhsG_value",
    "Verif.Adapt.energy_closed_form",
    "Verif.Adapt.energy_in_interval",
    "Verif.Adapt.weights_reproduce",
    "Verif.Adapt.average_over_z",
    "Verif.Adapt.mesh_weight",
    "Verif.Adapt.mesh_interval",
    "Verif.Adapt.bounded_only_for_integral",
    "Verif.Adapt.limit_for_integral",
    "Verif.Adapt.flat_solution",
    "Verif.Adapt.flat_step"
   ],
   "note": "Exact real arithmetic. The first two theorems are about the computed right-hand sides; the others are about exact solutions of the equations with these right-hand sides (right derivatives, continuous hybridisation function without zeros on the solution), not about the accumulated error of the Runge-Kutta steps."
  },
  {
   "property": "C90",
   "status": "partial",
   "theorems": [
    "Verif.Adapt.timestep_spec",
    "Verif.Adapt.timestep_errors",
    "Verif.Adapt.rk_exponential",
    "Verif.Adapt.rk_simpson",
    "Verif.Adapt.intTo_target",
    "Verif.Adapt.intTo_back",
    "Verif.Adapt.loop_done",
    "Verif.Adapt.loop_ends",
    "Verif.Adapt.calcF_lines",
    "Verif.Adapt.shoot_lines",
    "Verif.Adapt.calculations_end",
    "Verif.Adapt.no_subdivisions_inverted",
    "Verif.Adapt.no_end_without_step",
    "Verif.Adapt.max_error_counts_rejected"
   ],
   "note": "Exact arithmetic. Violated, negations proved: outputstep <= 0 is accepted and the calculation does not end; with max_subdiv = 0 the accurate steps are refused and the inaccurate ones accepted; the printed maximal error includes rejected steps."
  },
  {
   "property": "C91",
   "status": "partial",
   "theorems": [
    "Verif.Adapt.mesh_found",
    "Verif.Adapt.secant_exact",
    "Verif.Adapt.no_shift_divides_by_zero",
    "Verif.Adapt.rescale_total",
    "Verif.Adapt.rescale_interp",
    "Verif.Adapt.addZero_interp",
    "Verif.Adapt.addZero_total",
    "Verif.Adapt.addZero_good",
    "Verif.Adapt.rescale_good",
    "Verif.Adapt.command_line",
    "Verif.Adapt.file_not_sign"
   ],
   "note": "The result of the integration is an arbitrary function of the parameter. Missing: convergence for a nonlinear dependence. Violated, negations proved: secant_factor = 0 is accepted and leads to a division by zero; a parameter file whose name is a word for a sign cannot be given."
  },
  {
   "property": "C92",
   "status": "partial",
   "theorems": [
    "Verif.Param.tool_value",
    "Verif.Param.same_values",
    "Verif.Param.defaults_unless_exact",
    "Verif.Param.crlf_differs",
    "Verif.Param.bool_agree"
   ],
   "note": "Proved for files whose header line has no surrounding white space. Violated otherwise, negations proved: a header followed by white space (CR LF line ends) is not found by the tools, which then use the defaults for everything without a message; the spellings 1, yes, TRUE of a setting that is on are read as off. Numbers are compared as text."
  },
  {
   "property": "C93",
   "status": "proved",
   "theorems": [
    "Verif.Seed.instantiate_read",
    "Verif.Seed.build_file",
    "Verif.Seed.energies_nonneg",
    "Verif.Seed.between_product",
    "Verif.Seed.between_hamiltonian",
    "Verif.Seed.interrupted_write_partial"
   ],
   "note": "Exact arithmetic; the printed form of numbers is an arbitrary decimal text, what is read back is the value of this text. The eigensolver is an arbitrary function that returns sorted values. One channel of the Wilson chain. interrupted_write_partial does not cover an interruption within the last number."
  },
  {
   "property": "C94",
   "status": "partial",
   "theorems": [
    "Verif.Seed.no_run_no_effect",
    "Verif.Seed.others_untouched",
    "Verif.Seed.data_kept",
    "Verif.Seed.data_complete",
    "Verif.Seed.only_data_created",
    "Verif.Seed.nothing_removed",
    "Verif.Seed.input_kept",
    "Verif.Seed.default_run",
    "Verif.Seed.parameter_file_removed",
    "Verif.Seed.own_files_removed"
   ],
   "note": "Names of files are compared as texts (no links, no equivalent paths). Violated, negations proved: the clean-up removes files that the program has not made, among them the parameter file if it is called param.param, and all files vec.* and ham.*."
  },
  {
   "property": "C95",
   "status": "partial",
   "theorems": [
    "Verif.Seed.same_parameters",
    "Verif.Seed.repeated_section",
    "Verif.Seed.open_header"
   ],
   "note": "Proved for files in which the section occurs once and all headers are closed. Violated otherwise, negations proved."
  },
  {
   "property": "C96",
   "status": "proved",
   "theorems": [
    "Verif.NrgChain.call_history",
    "Verif.NrgChain.call_file",
    "Verif.NrgChain.program_call"
   ],
   "note": "Exact arithmetic. The tables of interpolation are functions of their data: the search index they remember does not matter (C70)."
  },
  {
   "property": "C97",
   "status": "partial",
   "theorems": [
    "Verif.NrgChain.loaded_chain",
    "Verif.NrgChain.chain_written",
    "Verif.NrgChain.calculated_chain",
    "Verif.NrgChain.symmetric_zeta",
    "Verif.NrgChain.flat_band",
    "Verif.NrgChain.flat_adapt"
   ],
   "note": "Exact real arithmetic in place of GMP with preccpp bits: the loss of precision, for which preccpp exists, is not modelled. Violated for the band flat with the option adapt (no mesh is read; flat_adapt)."
  },
  {
   "property": "C98",
   "status": "partial",
   "theorems": [
    "Verif.NrgChain.thrown_nothing_written",
    "Verif.NrgChain.files_written",
    "Verif.NrgChain.interrupted",
    "Verif.NrgChain.two_steps",
    "Verif.NrgChain.loaded_theta",
    "Verif.NrgChain.short_table"
   ],
   "note": "two_steps assumes that the numbers in the tables read back as written (18 digits). Each number is written by one operation. Violated, negations proved: the weight theta returned by the second step is zero, and a table that is too short is read beyond its end."
  },
  {
   "property": "C99",
   "status": "proved",
   "theorems": [
    "Verif.Job.job_result",
    "Verif.Job.complete_unique",
    "Verif.Job.job_no_surprise",
    "Verif.Job.job_current",
    "Verif.Job.job_no_deadlock",
    "Verif.Job.job_terminates",
    "Verif.Job.job_completes"
   ],
   "note": "Message level: every send, receive, probe and broadcast is a step. Not modelled: failures of processes or of the network, exceptions thrown during the calculation (the other processes then wait, see the observations), and start-up checks that fail on some processes only. The matrix returned by a diagonalisation is assumed to have as many elements as rows times columns."
  },
  {
   "property": "C100",
   "status": "proved",
   "theorems": [
    "Verif.Sweep.sweeps_agree",
    "Verif.Sweep.second_completes",
    "Verif.Sweep.collected"
   ],
   "note": "Exact arithmetic. The eigensolver, the recalculation of one operator and the trimming are parameters; for operators recalculated at different stages in the two sweeps (cfs with fdm) the statement assumes that recalculating and trimming commute, which is C37. P.project and HDF5 output are not modelled. Without Floquet blocks and without resuming (C101)."
  },
  {
   "property": "C101",
   "status": "partial",
   "theorems": [
    "Verif.Sweep.resume_undefined",
    "Verif.Sweep.floquet_second_undefined",
    "Verif.Sweep.resume_nothing_partial"
   ],
   "note": "Both parts of the property are false: the stored spectra have their eigenvectors in the blocks only, and splitting them again reads elements of an empty matrix. What holds is that a run without a stored step does not depend on the request to resume (and by C56 the program never finds a stored step, so the resumed run in fact starts from the beginning)."
  },
  {
   "property": "C102",
   "status": "proved",
   "theorems": [
    "Verif.Bw.bw_result",
    "Verif.Bw.bw_weight",
    "Verif.Bw.bw_nonneg",
    "Verif.Bw.bw_single",
    "Verif.Bw.bw_scaling"
   ],
   "note": "Exact real arithmetic; results that are not finite are separate cases. Assertions are counted as failures, so the statement holds for builds with and without them. Parsing of the command line, number formatting and a failure to open an output file are not modelled."
  },
  {
   "property": "C103",
   "status": "partial",
   "theorems": [
    "Verif.Bw.zero_peak_lost",
    "Verif.Bw.bw_endless",
    "Verif.Bw.bw_refuses_partial"
   ],
   "note": "False in two ways: a peak at frequency zero loses its weight, and a lower end of the mesh that is not positive makes the tool run for ever. What holds is that input files that are missing or hold half a pair are refused."
  },
  {
   "property": "C104",
   "status": "proved",
   "theorems": [
    "Verif.Gemm.gemm_correct",
    "Verif.Gemm.gemm_mismatch",
    "Verif.Gemm.gemm_range",
    "Verif.Gemm.product_refines",
    "Verif.Gemm.transform_refines",
    "Verif.Gemm.rotate_refines",
    "Verif.Gemm.rotateDiagonal_refines",
    "Verif.Gemm.matrixProd_correct",
    "Verif.Gemm.matrixAdjProd_correct",
    "Verif.Gemm.prodFit_refines",
    "Verif.Gemm.prodAdjFit_refines",
    "Verif.Gemm.gemm_overrun"
   ],
   "note": "Exact arithmetic. The Fortran routine is modelled by its documented effect on memory. Operands and result are different objects. The size of the result is checked by an assertion only: gemm_overrun shows what a build without assertions does with a result that is too small; all callers allocate it with the right size. CUDA is not modelled."
  },
  {
   "property": "C105",
   "status": "proved",
   "theorems": [
    "Verif.Mx.readText_layout",
    "Verif.Mx.readText_range",
    "Verif.Mx.readText_ragged",
    "Verif.Mx.readText_sizes",
    "Verif.Mx.matText_read",
    "Verif.Mx.readBin_read",
    "Verif.Mx.readBin_cut"
   ],
   "note": "Number formats are abstract: output with 18 digits is a decimal number that is read as the same number, eight bytes in memory are read as the same number. The file is the list of its bytes. Failures to open a file for writing are not modelled."
  },
  {
   "property": "C106",
   "status": "proved",
   "theorems": [
    "Verif.Mx.diag_spec",
    "Verif.Mx.diag_refuses",
    "Verif.Mx.unitary_spec",
    "Verif.Mx.unitary_output",
    "Verif.Mx.unitary_mismatch",
    "Verif.Mx.diag_unitary"
   ],
   "note": "Exact arithmetic; products through the memory model of C104; dsyev by its documented contract, as in C62. Parsing of the command line and terminal output are not modelled. The file for diag must have no comments (see C107)."
  },
  {
   "property": "C107",
   "status": "partial",
   "theorems": [
    "Verif.Mx.diag_ignores_rest",
    "Verif.Mx.diag_unitary_disagree",
    "Verif.Mx.readText_shifts",
    "Verif.Mx.diag_not_symmetric"
   ],
   "note": "False: diag stops silently at the first thing that is not a number (also a comment), so that the same file can be a matrix of dimension four for unitary and one of dimension two for diag; a word like 1-2 is counted as one and read as two numbers, and the last number is lost; a matrix that is not symmetric is diagonalised as if it were. What holds is the refusal of lines of different lengths (C105) and of counts that are not squares (C106)."
  },
  {
   "property": "C108",
   "status": "proved",
   "theorems": [
    "Verif.Start.decision_spec",
    "Verif.Start.scratch_spec",
    "Verif.Start.scratch_embedded",
    "Verif.Start.launch_final",
    "Verif.Start.launch_together",
    "Verif.Start.launch_all_fail",
    "Verif.Start.launch_steps"
   ],
   "note": "Processes with interleaved steps; MPI_Bcast either returns at once on the root or waits for all. The MPI library itself, the messages and the report are not modelled."
  },
  {
   "property": "C109",
   "status": "partial",
   "theorems": [
    "Verif.Start.launch_stuck",
    "Verif.Start.launch_missing",
    "Verif.Start.prepare_differs",
    "Verif.Start.scratch_surprises"
   ],
   "note": "False: the threading library is checked in each process before the broadcast of the decision, and the environments may differ, so that a process leaves and the others wait for ever; -w is ignored if there are further arguments; an empty NRG_WORKDIR selects the root directory; -h is understood only as the first argument (decision_spec). What holds is C108."
  },
  {
   "property": "C110",
   "status": "proved",
   "theorems": [
    "Verif.Start.prepare_iff",
    "Verif.Start.prepare_variable",
    "Verif.Start.prepare_again",
    "Verif.Start.prepare_case",
    "Verif.Start.prepare_unknown"
   ],
   "note": "Presence of the OpenMP functions in the process is a parameter. ASCII characters."
  },
  {
   "property": "C111",
   "status": "proved",
   "theorems": [
    "Verif.Start.scratch_isolated",
    "Verif.Start.scratch_outside",
    "Verif.Start.scratch_clean",
    "Verif.Start.scratch_left",
    "Verif.Start.scratch_nothing_stored"
   ],
   "note": "mkdtemp makes a directory that did not exist; file names within a work directory are arbitrary. Failures of the file system and signals are not modelled. The existing files must not lie in directories that do not exist."
  },
  {
   "property": "C112",
   "status": "proved",
   "theorems": [
    "Verif.Start.complexData_iff",
    "Verif.Start.served_iff",
    "Verif.Start.symmetry_unknown",
    "Verif.Start.symmetry_selected",
    "Verif.Start.symmetry_substeps",
    "Verif.Start.symmetry_substeps_other",
    "Verif.Start.symmetry_refused"
   ],
   "note": "The tables are those of C08."
  },
  {
   "property": "C113",
   "status": "partial",
   "theorems": [
    "Verif.Start.symmetry_substeps_outside",
    "Verif.Start.symmetry_QJ"
   ],
   "note": "False: with substeps the vectors are made for one channel, but most symmetries still assign their table for all channels (undefined behaviour); QJ does not look at the number of channels: with one or two it writes after the end of the vectors, with four or more some entries have no quantum numbers. What holds is C112."
  },
  {
   "property": "C114",
   "status": "proved",
   "theorems": [
    "Verif.Resample.resample_accepts",
    "Verif.Resample.resample_order",
    "Verif.Resample.resample_values",
    "Verif.Resample.resample_numbers",
    "Verif.Resample.resample_self",
    "Verif.Resample.resample_grid",
    "Verif.Resample.resample_files",
    "Verif.Resample.resample_same_file",
    "Verif.Resample.resample_twice",
    "Verif.Resample.resample_options",
    "Verif.Resample.resample_missing"
   ],
   "note": "The Akima spline of the GSL by its contract: through the points, a value between them, none outside; five increasing points needed. Numbers in a linear order; printing is a parameter, exact where a round trip is claimed. Splitting of the command line by getopt is not modelled."
  },
  {
   "property": "C115",
   "status": "partial",
   "theorems": [
    "Verif.Resample.resample_nan",
    "Verif.Resample.resample_one_column",
    "Verif.Resample.sixteen_digits"
   ],
   "note": "False: without -e a grid point outside the range gives NaN in the output, which no reader of the library accepts, and the program reports success; a grid of one column is read as pairs; the default of sixteen digits is not enough to reproduce double precision numbers. What holds is C114."
  },
  {
   "property": "C116",
   "status": "proved",
   "theorems": [
    "Verif.Calc.parser_evaluates"
   ],
   "note": "The parser as the table-driven loop of parser.cc with its tables. Numbers in a field; sqrt, exp, log and the value of decimal numbers are parameters."
  },
  {
   "property": "C117",
   "status": "proved",
   "theorems": [
    "Verif.Calc.parser_ends",
    "Verif.Calc.parser_decides",
    "Verif.Calc.grammar_trees",
    "Verif.Calc.parser_prefix"
   ],
   "note": "As for C116."
  },
  {
   "property": "C118",
   "status": "proved",
   "theorems": [
    "Verif.Calc.lex_written",
    "Verif.Calc.program_text",
    "Verif.Calc.calculator_evaluates",
    "Verif.Calc.calculator_symbols"
   ],
   "note": "The scanner as the rules of matrix.ll with longest match; the tables generated by flex are not modelled. `parse file`, `!command` and several input files are an outcome of their own."
  },
  {
   "property": "C119",
   "status": "partial",
   "theorems": [
    "Verif.Calc.argument_dropped",
    "Verif.Calc.assignment_dropped",
    "Verif.Calc.integer_range",
    "Verif.Calc.numbers_misread",
    "Verif.Calc.unset_zero",
    "Verif.Calc.division_by_zero",
    "Verif.Calc.ragged_matrix",
    "Verif.Calc.long_vector",
    "Verif.Calc.errors_status",
    "Verif.Calc.brace_mismatch"
   ],
   "note": "False: f[x] with a name as argument loses the argument, a=b without blanks is no assignment, 12e3 is not a number, large integers are undefined behaviour, unset names are zero, n/0 is n, rows may have different lengths, vectors of 5000 elements exhaust the parser, and the exit status is zero after a syntax error. What holds is C116 to C118."
  },
  {
   "property": "C120",
   "status": "proved",
   "theorems": [
    "Verif.Calc.same_matrix"
   ],
   "note": "Numbers are elements of a field; both tools read decimal numbers as the same number (shown for exact decimals in decimal_lit and sample_same). Texts without dollar sign and exclamation mark; names followed immediately by an equal sign and a letter, and brackets followed immediately by a letter are excluded (see C121). At most 196 names; depth of the stack as in C116."
  },
  {
   "property": "C121",
   "status": "partial",
   "theorems": [
    "Verif.Calc.argument_differs",
    "Verif.Calc.unset_differs",
    "Verif.Calc.pi_differs",
    "Verif.Calc.division_differs",
    "Verif.Calc.ragged_differs"
   ],
   "note": "False: Sqrt[x] with a variable as argument, names that are not set, Pi, division by zero and rows of different lengths; in all these cases the calculator prints a number or a matrix and exits with status zero. What holds is C120."
  },
  {
   "property": "C122",
   "status": "proved",
   "theorems": [
    "Verif.Cmd.getopt_reads",
    "Verif.Cmd.getopt_only",
    "Verif.Cmd.tool_refuses",
    "Verif.Cmd.main_help",
    "Verif.Cmd.num_lit",
    "Verif.Cmd.int_str",
    "Verif.Cmd.binavg_command",
    "Verif.Cmd.mats_command",
    "Verif.Cmd.bw_command",
    "Verif.Cmd.integ_command",
    "Verif.Cmd.diag_command",
    "Verif.Cmd.unitary_command",
    "Verif.Cmd.matrix_command",
    "Verif.Cmd.h5write_command",
    "Verif.Cmd.intavg_command",
    "Verif.Cmd.tdavg_command",
    "Verif.Cmd.specmoments_command",
    "Verif.Cmd.broaden_command",
    "Verif.Cmd.hilb_command",
    "Verif.Cmd.resample_command",
    "Verif.Cmd.bw_defaults"
   ],
   "note": "getopt of the GNU C library is modelled (short options, operands anywhere; POSIXLY_CORRECT not set). Settings that only change messages are left out. Numbers are exact decimals; nan, inf and overflow are not modelled."
  },
  {
   "property": "C123",
   "status": "partial",
   "theorems": [
    "Verif.Cmd.unknown_ends",
    "Verif.Cmd.hilb_negative",
    "Verif.Cmd.hilb_negative_partial",
    "Verif.Cmd.matrix_V",
    "Verif.Cmd.hilb_V",
    "Verif.Cmd.help_needs_number",
    "Verif.Cmd.integer_prefix",
    "Verif.Cmd.hilb_scale_text",
    "Verif.Cmd.hilb_nothing"
   ],
   "note": "False: hilb does not take negative operands (except after --), matrix -V and hilb -V abort, -h is the filter of broaden and specmoments unless it stands alone, numbers are read up to the first character that does not fit (1e3 points are one) and a text without digits is zero, hilb with three operands ends with success. What holds is C122."
  },
  {
   "property": "C124",
   "status": "proved",
   "theorems": [
    "Verif.Hrun.hilb_one",
    "Verif.Hrun.hilb_stream",
    "Verif.Hrun.hilb_files",
    "Verif.Hrun.hilbert_value",
    "Verif.Hrun.semi_normalised",
    "Verif.Hrun.loadDos_spec"
   ],
   "note": "The cubic spline of the GSL is used through its contract (continuous, through the points, zero for zero data), its quadrature is replaced by the exact integral; rounding and the 16 digits of the output are not modelled. The argument must not be real (see C125) and nothing is said straight above or below the edges of the band closer than 10^-3 (see C59). The files read are not among those written."
  },
  {
   "property": "C125",
   "status": "partial",
   "theorems": [
    "Verif.Hrun.two_points",
    "Verif.Hrun.repeated_abscissa",
    "Verif.Hrun.comment_ends",
    "Verif.Hrun.output_is_input",
    "Verif.Hrun.small_labels",
    "Verif.Hrun.real_axis"
   ],
   "note": "False: a table with two points makes it use a null pointer, one with a repeated abscissa an uninitialised spline; a comment ends the input silently; frequencies below 10^-6 are never found different; for real arguments outside the band zero is printed; -o may name the input file, which is then empty. What holds is C124."
  },
  {
   "property": "C126",
   "status": "proved",
   "theorems": [
    "Verif.Zrun.binavg_run",
    "Verif.Zrun.specmoments_run",
    "Verif.Zrun.mats_run",
    "Verif.Zrun.intavg_run",
    "Verif.Zrun.average_first"
   ],
   "note": "Binary files are sequences of numbers of eight bytes; exact arithmetic; failures to open a file for writing are not modelled. For intavg the tables have comments at the beginning only and increasing arguments (see C58, C88 for the rest)."
  },
  {
   "property": "C127",
   "status": "partial",
   "theorems": [
    "Verif.Zrun.unusable_refused_partial",
    "Verif.Zrun.wrong_columns",
    "Verif.Zrun.wrong_columns_weight",
    "Verif.Zrun.cut_accepted",
    "Verif.Zrun.empty_counts",
    "Verif.Zrun.one_of_many",
    "Verif.Zrun.zero_kept"
   ],
   "note": "Proved: missing files and incomplete rows are refused, whatever the number of files. False: a complex spectrum with an even number of rows is read as a real one, a file cut between rows or empty is accepted (the average is still divided by Nz), -o with several calculations sends the average to spec.bin, and -p keeps the frequency zero."
  },
  {
   "property": "C128",
   "status": "proved",
   "theorems": [
    "Verif.Qrun.tdavg_run",
    "Verif.Qrun.tdavg_ref_run",
    "Verif.Qrun.kk_run",
    "Verif.Qrun.kk_std_run",
    "Verif.Qrun.integ_run",
    "Verif.Qrun.integ_halves"
   ],
   "note": "Exact arithmetic; how numbers are printed is arbitrary; the spline of kk and integ is an arbitrary function of the table, the quadrature exact. The data sets of tdavg are separated by comments, all rows have the same number of columns and no temperature occurs twice in a data set (see C58 for the rest); the tables of kk and integ have comments at the beginning only."
  },
  {
   "property": "C129",
   "status": "partial",
   "theorems": [
    "Verif.Qrun.tdavg_others_partial",
    "Verif.Qrun.kk_others_partial",
    "Verif.Qrun.blank_refused",
    "Verif.Qrun.integ_refuses",
    "Verif.Qrun.earlier_lost",
    "Verif.Qrun.earlier_lost_missing",
    "Verif.Qrun.reference_destroyed",
    "Verif.Qrun.reference_unasked",
    "Verif.Qrun.words_accepted",
    "Verif.Qrun.kk_earlier_lost",
    "Verif.Qrun.kk_same_file"
   ],
   "note": "Proved: no file but the one for the result is changed, the result of tdavg is never its data, a refused command line or a missing input of kk changes nothing, lines without numbers are refused, integ needs five points at distinct arguments. False: the result is opened before the data are read, so every failing run empties it (and the reference or, in kk, the data themselves if they have that name); words are read as zero; td-ref.dat is subtracted from data with any name."
  },
  {
   "property": "C130",
   "status": "proved",
   "theorems": [
    "Verif.Mrun.matrix_run",
    "Verif.Mrun.matrix_nambu",
    "Verif.Mrun.matrix_output",
    "Verif.Mrun.matrix_program",
    "Verif.Mrun.matrix_file",
    "Verif.Mrun.chain_to_matrix"
   ],
   "note": "Exact arithmetic; how numbers are printed is arbitrary (for matrix_file: decimal numbers that are read back; for chain_to_matrix: decimal numbers, whose values are used). The program text comes from standard input or one file; several files are not modelled. What is written before an error in the scanner is not modelled. The meaning of the program text is C116 to C118."
  },
  {
   "property": "C131",
   "status": "partial",
   "theorems": [
    "Verif.Mrun.matrix_files_partial",
    "Verif.Mrun.theta_comment",
    "Verif.Mrun.table_cut",
    "Verif.Mrun.nambu_hybrid",
    "Verif.Mrun.nambu_first_channel",
    "Verif.Mrun.no_channels",
    "Verif.Mrun.empty_matrix_line"
   ],
   "note": "Proved: all files must exist, the number of channels must not be negative, a hybridisation strength that is read must not be negative. False: what cannot be read as a number counts as zero or ends the table silently; with -s gammapolch is zero and the files Vij of further channels are not used; a number of channels that is not a number counts as zero; with -P an empty matrix leaves a line without end."
  },
  {
   "property": "C132",
   "status": "proved",
   "theorems": [
    "Verif.Brun.broaden_run",
    "Verif.Brun.broaden_mesh",
    "Verif.Brun.halves_add",
    "Verif.Brun.broaden_average_first"
   ],
   "note": "Exact arithmetic; lines are pairs of numbers (the text of a table that is read with -L is modelled, that of spec.dat is not). The mesh of the program needs a positive lower limit, and an accumulation point that is not negative unless -g is given; that of -L must be ordered and without zero unless -g is given. The kernel is that of C83."
  },
  {
   "property": "C133",
   "status": "partial",
   "theorems": [
    "Verif.Brun.broaden_files_partial",
    "Verif.Brun.negative_min_endless",
    "Verif.Brun.zero_on_mesh",
    "Verif.Brun.nothing_kept",
    "Verif.Brun.accumulation_at_max"
   ],
   "note": "Proved: files must exist with whole rows, the mesh must be ordered and not empty, limits and ratio in range. False: a negative lower limit gives an endless loop; zero on a mesh from a file gives a value that is not a number; -P with -N gives a spectrum that is zero; an accumulation point at the largest frequency gives a mesh with only two different points."
  },
  {
   "property": "C134",
   "status": "proved",
   "theorems": [
    "Verif.Arun.adapt_settings",
    "Verif.Arun.adapt_run",
    "Verif.Arun.adapt_ends",
    "Verif.Arun.adapt_read_by_nrgchain",
    "Verif.Arun.adapt_reads",
    "Verif.Arun.adapt_either_order"
   ],
   "note": "Exact arithmetic; the command line is that of C91, the integration that of C89 and C90. outputstep and dx_fast must be positive (not checked by the program, see C135). Tables that are not strictly increasing and divisions by zero in the search are outside the model; so is the report on the terminal. For nrgchain: what is printed with 16 digits is read as a number."
  },
  {
   "property": "C135",
   "status": "partial",
   "theorems": [
    "Verif.Arun.adapt_refused_partial",
    "Verif.Arun.adapt_success_partial",
    "Verif.Arun.failure_destroys_energies",
    "Verif.Arun.success_ends_early",
    "Verif.Arun.no_mesh_without_step",
    "Verif.Arun.no_step_accepted"
   ],
   "note": "Proved: success is reported only for a request for help or a calculation that has come to its end; nothing is written unless command line, parameters and hybridisation function are accepted, and only the two files of the own sign are ever changed. False: an error during the integration leaves FSOL.dat with the lines computed so far; success is reported when the solution exceeds max_abs long before xmax; outputstep = 0 is accepted and the search for the mesh then never succeeds."
  },
  {
   "property": "C136",
   "status": "proved",
   "theorems": [
    "Verif.Raw.raw_names",
    "Verif.Raw.raw_names_distinct",
    "Verif.Raw.raw_complete",
    "Verif.Raw.raw_any_order",
    "Verif.Raw.once_of_one_round"
   ],
   "note": "Of the HDF5 library it is assumed that a write creates the data set and the missing groups, and throws if the name is taken or if a part of it is a data set. The contents are opaque. Names of operators are assumed to be non-empty and without slash, labels to have at least one quantum number, keywords of parameters to be distinct; tables are maps and thus have distinct keys. That no Hamiltonian is set up twice holds if no step is repeated (see C137)."
  },
  {
   "property": "C137",
   "status": "partial",
   "theorems": [
    "Verif.Raw.raw_file_partial",
    "Verif.Raw.restart_ends_run",
    "Verif.Raw.restart_example",
    "Verif.Raw.slash_in_name"
   ],
   "note": "Proved: with usable names the file is completed if and only if no stored step sets up the same Hamiltonian twice with h5ham. False: with h5ham a repeated step writes a second time under the same name, which throws and ends the run; names of operators with a slash can collide."
  },
  {
   "property": "C138",
   "status": "proved",
   "theorems": [
    "Verif.Hw.h5write_success",
    "Verif.Hw.h5write_found",
    "Verif.Hw.h5write_matrix",
    "Verif.Hw.session_iff",
    "Verif.Hw.h5write_any_order"
   ],
   "note": "The command line is that of C122, the text files with matrices those of C105. The HDF5 library is as in C136; opening without -t is assumed to fail if there is no file. The input is not the HDF5 file itself. The value of a scalar is exact. How the library stores a matrix without elements is not modelled."
  },
  {
   "property": "C139",
   "status": "partial",
   "theorems": [
    "Verif.Hw.failure_partial",
    "Verif.Hw.truncate_destroys",
    "Verif.Hw.truncate_example",
    "Verif.Hw.text_as_scalar",
    "Verif.Hw.negative_scalar"
   ],
   "note": "Proved: without -t a run that fails changes nothing, and with it only the named HDF5 file. False: -t empties the file before the input is read, so that a mistyped name of the input destroys the contents; -s accepts any text (as zero or up to the first character that does not fit); a negative number is taken for an option unless -- is written."
  },
  {
   "property": "C140",
   "status": "proved",
   "theorems": [
    "Verif.Wrun.bw_run",
    "Verif.Wrun.names_distinct",
    "Verif.Wrun.bw_average_first"
   ],
   "note": "The command line is that of C122, the calculation that of C102, the averaging that of C126. Numbers are exact; the digits written and failures to open a file for writing are not modelled. In `bw_average_first` the raw spectra have one column of weights."
  },
  {
   "property": "C141",
   "status": "partial",
   "theorems": [
    "Verif.Wrun.bw_input_partial",
    "Verif.Wrun.no_iterations",
    "Verif.Wrun.unreadable_endless",
    "Verif.Wrun.second_run_overwrites"
   ],
   "note": "Proved: a missing or incomplete raw spectrum is never followed by success. False: with a number of iterations that is not positive or cannot be read the program ends with success and writes no spectrum; with a lower end of the mesh that is not positive or cannot be read it never ends; the names of the results do not contain that of the input, so that a second run replaces the result of the first. The files left behind by a run that fails are not modelled."
  }
 ]
}