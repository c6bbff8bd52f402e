{
 "claims": [
  {
   "property": "C01",
   "status": "proved",
   "theorems": [
    "DexRT.C01_decode_encode",
    "DexRT.C01_encode_decode",
    "DexRT.C01_injective",
    "DexRT.C01_alias",
    "DexRT.C01_interleave"
   ],
   "note": "2D Morton codes; C01_alias shows the 16-bit limit is sharp"
  },
  {
   "property": "C02",
   "status": "proved",
   "theorems": [
    "DexRT.C02_decode_encode",
    "DexRT.C02_encode_decode",
    "DexRT.C02_injective",
    "DexRT.C02_alias"
   ],
   "note": "3D Morton codes; C02_alias shows the 10-bit limit is sharp"
  },
  {
   "property": "C03",
   "status": "proved",
   "theorems": [
    "DexRT.C03_dense2",
    "DexRT.C03_dense3",
    "DexRT.C03_reject2",
    "DexRT.C03_reject3"
   ],
   "note": ""
  },
  {
   "property": "C04",
   "status": "proved",
   "theorems": [
    "DexRT.C04_sparse2",
    "DexRT.C04_sparse3",
    "DexRT.C04_reject2",
    "DexRT.C04_reject3"
   ],
   "note": ""
  },
  {
   "property": "C05",
   "status": "proved",
   "theorems": [
    "DexRT.C05_bijection2",
    "DexRT.C05_bijection3"
   ],
   "note": ""
  },
  {
   "property": "C06",
   "status": "partial",
   "theorems": [
    "DexRT.C06_cache2_partial",
    "DexRT.C06_cache3_partial",
    "DexRT.C06_refuted2",
    "DexRT.C06_refuted3"
   ],
   "note": "False of the code as stated: a fresh generator reports data in tile (-1,-1) (C06_refuted*). Proved for all other cells and for every cell after the first hit on an active tile."
  },
  {
   "property": "C07",
   "status": "proved",
   "theorems": [
    "DexRT.C07_idx2",
    "DexRT.C07_idx3",
    "DexRT.C07_level2",
    "DexRT.C07_level3",
    "DexRT.C07_level_needs_discipline"
   ],
   "note": ""
  },
  {
   "property": "C08",
   "status": "proved",
   "theorems": [
    "DexRT.C08_storage",
    "DexRT.C08_reject",
    "DexRT.C08_loop_agree2",
    "DexRT.C08_loop_agree3"
   ],
   "note": ""
  },
  {
   "property": "C09",
   "status": "proved",
   "theorems": [
    "DexRT.C09_packed2",
    "DexRT.C09_packed3",
    "DexRT.C09_reject_odd"
   ],
   "note": ""
  },
  {
   "property": "C10",
   "status": "proved",
   "theorems": [
    "DexRT.C10_flat_loop",
    "DexRT.C10_num_iter",
    "DexRT.C10_two_loops_overflow",
    "DexRT.C10_many_loops_overflow"
   ],
   "note": "the stated hypothesis (products fit the integer type) is shown sharp by the overflow theorems"
  },
  {
   "property": "C11",
   "status": "proved",
   "theorems": [
    "DexRT.C11_team_split",
    "DexRT.C11_team_shape",
    "DexRT.C11_gpu_launch",
    "DexRT.C11_gpu_launch_long"
   ],
   "note": "the 32-bit CUDA/HIP launch index makes the 2^32 limit sharp"
  },
  {
   "property": "C12",
   "status": "proved",
   "theorems": [
    "DexRT.C12_storage",
    "DexRT.C12_preaverage",
    "DexRT.C12_shapes_agree"
   ],
   "note": ""
  },
  {
   "property": "C13",
   "status": "proved",
   "theorems": [
    "DexRT.C13_storage",
    "DexRT.C13_shapes_agree"
   ],
   "note": ""
  },
  {
   "property": "C14",
   "status": "proved",
   "theorems": [
    "DexRT.C14_partition2",
    "DexRT.C14_partition3",
    "DexRT.C14_children_in_pass2",
    "DexRT.C14_children_in_pass3"
   ],
   "note": ""
  },
  {
   "property": "C15",
   "status": "proved",
   "theorems": [
    "DexRT.C15_children2",
    "DexRT.C15_preaverage"
   ],
   "note": "2D; the 3D analogue is C42"
  },
  {
   "property": "C16",
   "status": "partial",
   "theorems": [
    "DexRT.C16_intervals2",
    "DexRT.C16_ordered2",
    "DexRT.C16_default_limit",
    "DexRT.C16_intervals3",
    "DexRT.C16_last3_partial",
    "DexRT.C16_last3_refuted"
   ],
   "note": "2D proved; in 3D the last cascade ignores its own configured maximum (refuted with witness); with the default constants the last 2D interval is reversed when max_cascade >= 8"
  },
  {
   "property": "C17",
   "status": "partial",
   "theorems": [
    "DexRT.C17_buffers",
    "DexRT.C17_overrun3_refuted",
    "DexRT.C17_output3_refuted",
    "DexRT.C17_buffers3_partial",
    "DexRT.C17_sizes3_partial"
   ],
   "note": "2D proved; 3D indices use the 2D ping-pong flag so with the default 3D flags buffers do not match (refuted with witness); proved when the flags agree"
  },
  {
   "property": "C18",
   "status": "proved",
   "theorems": [
    "DexRT.C18_convex",
    "DexRT.C18_linear"
   ],
   "note": ""
  },
  {
   "property": "C19",
   "status": "proved",
   "theorems": [
    "DexRT.C19_convex",
    "DexRT.C19_linear"
   ],
   "note": ""
  },
  {
   "property": "C20",
   "status": "partial",
   "theorems": [
    "DexRT.C20_lists",
    "DexRT.C20_schedule",
    "DexRT.C20_fine_partial",
    "DexRT.C20_partial",
    "DexRT.C20_all_active_partial",
    "DexRT.C20_refuted"
   ],
   "note": "FALSE in general: C20_refuted exhibits a 32x32 grid with one active tile where an upper probe with non-zero weight is not in the list (2D marking clamps at corner 0). Proved closed while n+2<=log2(block) , away from the first rows/columns and for fully active grids."
  },
  {
   "property": "C21",
   "status": "proved",
   "theorems": [
    "DexRT.C21_closed"
   ],
   "note": "3D lists are merge-closed for every active set"
  },
  {
   "property": "C22",
   "status": "partial",
   "theorems": [
    "DexRT.C22_partial",
    "DexRT.C22_never_twice_partial",
    "DexRT.C22_none_missed",
    "DexRT.C22_all_told",
    "DexRT.C22_refuted",
    "DexRT.C22_static",
    "DexRT.C22_given"
   ],
   "note": "FALSE in the first pass of a multi-rank run: C22_refuted (request served before rank 0 resets the counter). Proved for all interleavings: every later pass, single-rank runs, static mode, no-MPI mode, given-emissivity loop; never misses a wavelength; always terminates."
  },
  {
   "property": "C23",
   "status": "partial",
   "theorems": [
    "DexRT.C23_associative_partial",
    "DexRT.C23_identity",
    "DexRT.C23_refuted_without_tau",
    "DexRT.C23_path",
    "DexRT.C23_interpolate"
   ],
   "note": "associative with stored optical depths; FALSE with the default STORE_TAU_CASCADES=false (C23_refuted_without_tau), where only the far-side-first order used by the cascades is right: C23_path proves that order exact for every cut of a ray"
  },
  {
   "property": "C24",
   "status": "proved",
   "theorems": [
    "DexRT.C24_between",
    "DexRT.C24_nonneg",
    "DexRT.C24_tau",
    "DexRT.C24_chi",
    "DexRT.C24_alo",
    "DexRT.C24_cascades",
    "DexRT.C24_mean_intensity",
    "DexRT.C24_incl_weights"
   ],
   "note": "real arithmetic; W=1 up to 1e-13 for the printed quadrature weights"
  },
  {
   "property": "C25",
   "status": "proved",
   "theorems": [
    "DexRT.C25_columns",
    "DexRT.C25_conserves",
    "DexRT.C25_defined",
    "DexRT.C25_unique",
    "DexRT.C25_any_elimination",
    "DexRT.C25_positive",
    "DexRT.C25_fixed_point",
    "DexRT.C25_change",
    "DexRT.C25_disconnected"
   ],
   "note": "exact arithmetic over any ordered field, any number of levels, elimination without pivoting as in the code; connectivity is needed for the solve to be defined (C25_disconnected)"
  },
  {
   "property": "C26",
   "status": "proved",
   "theorems": [
    "DexRT.C26_atomic",
    "DexRT.C26_plain",
    "DexRT.C26_plain_needs_ownership",
    "DexRT.C26_cells",
    "DexRT.C26_ranks"
   ],
   "note": "exact arithmetic"
  },
  {
   "property": "C27",
   "status": "partial",
   "theorems": [
    "DexRT.C27_total",
    "DexRT.C27_saha_boltzmann_partial",
    "DexRT.C27_unique",
    "DexRT.C27_refuted_stage"
   ],
   "note": "proved when level 0 is of the lowest ionisation stage and no population is at the lower clamp (totals bounded with clamp); FALSE for levels of lower stage than level 0"
  },
  {
   "property": "C28",
   "status": "partial",
   "theorems": [
    "DexRT.C28_rates",
    "DexRT.C28_scaling",
    "DexRT.C28_equilibrium_partial",
    "DexRT.C28_refuted_charge_exchange",
    "DexRT.C28_ne_pert_restores"
   ],
   "note": "proved for all kinds except charge exchange, which is one-sided: FALSE for those"
  },
  {
   "property": "C29",
   "status": "partial",
   "theorems": [
    "DexRT.C29_fires",
    "DexRT.C29_iterates",
    "DexRT.C29_weights",
    "DexRT.C29_defined_iff",
    "DexRT.C29_converged_partial",
    "DexRT.C29_exact",
    "DexRT.C29_refuted_identical",
    "DexRT.C29_refuted_few_cells",
    "DexRT.C29_refuted_conservation",
    "DexRT.C29_refuted_positive"
   ],
   "note": "firing rule and unit, least-squares-optimal weights proved; \"leaves agreeing iterates alone\" is FALSE: a level whose last four iterates agree becomes NaN (C29_refuted_identical), any grid of fewer than 3 cells too; totals over levels and positivity are not preserved (refuted with witnesses). C29_converged_partial: unchanged when the last two agree and the level is non-degenerate"
  },
  {
   "property": "C30",
   "status": "partial",
   "theorems": [
    "DexRT.C30_pressure_partial",
    "DexRT.C30_change",
    "DexRT.C30_clamp_iff",
    "DexRT.C30_refuted_clamp"
   ],
   "note": "proved when the density is not clamped; FALSE when it is (exactly when P/kT < ne - protons): C30_refuted_clamp"
  },
  {
   "property": "C31",
   "status": "partial",
   "theorems": [
    "DexRT.C31_total",
    "DexRT.C31_range_partial",
    "DexRT.C31_refuted",
    "DexRT.C31_refuted_short"
   ],
   "note": "total of the weights and exact per-range sum proved; FALSE that a transition inside a larger grid integrates to its own width (C31_refuted); fewer than two wavelengths read out of bounds"
  },
  {
   "property": "C32",
   "status": "partial",
   "theorems": [
    "DexRT.C32_slice_partial",
    "DexRT.C32_layout",
    "DexRT.C32_index",
    "DexRT.C32_refuted"
   ],
   "note": "proved for up to 65536 transitions; FALSE beyond (u16 narrowing)"
  },
  {
   "property": "C33",
   "status": "proved",
   "theorems": [
    "DexRT.C33_ranges",
    "DexRT.C33_concat",
    "DexRT.C33_sigma",
    "DexRT.C33_hydrogen"
   ],
   "note": ""
  },
  {
   "property": "C34",
   "status": "partial",
   "theorems": [
    "DexRT.C34_mean2_partial",
    "DexRT.C34_mean3_vel",
    "DexRT.C34_emis3_refuted",
    "DexRT.C34_emis3_const_refuted",
    "DexRT.C34_total2",
    "DexRT.C34_total3",
    "DexRT.C34_const",
    "DexRT.C34_bounds"
   ],
   "note": "Proved in exact arithmetic for every map, field, level and schedule for all 2D arrays and for the 3D velocities and line data. Refuted for 3D emissivity and opacity: the sum of 8 sub-cells is multiplied by 0.25 (Mipmaps3d.cpp:340-341), so level l holds 2^l times the mean. Missing: floating-point rounding; the direction-interpolated (VelocityInterp) arrays."
  },
  {
   "property": "C35",
   "status": "partial",
   "theorems": [
    "DexRT.C35_entry_partial",
    "DexRT.C35_too_deep_refuted",
    "DexRT.C35_uniform_passes",
    "DexRT.C35_uniform3_refuted"
   ],
   "note": "Proved for every outcome of the tests and every order, when the mip limit does not exceed log2(block size). Nothing checks that limit: an accepted deeper limit divides by zero (refuted with witness). The 3D base-array test fails uniform thick blocks because it normalises 8 sub-cells by 0.25. Test arithmetic is exact-real."
  },
  {
   "property": "C36",
   "status": "partial",
   "theorems": [
    "DexRT.C36_sparsify2",
    "DexRT.C36_rehydrate2",
    "DexRT.C36_roundtrip_dense2",
    "DexRT.C36_roundtrip_sparse2",
    "DexRT.C36_active_map",
    "DexRT.C36_sparsify3",
    "DexRT.C36_rehydrate3_partial",
    "DexRT.C36_roundtrip_dense3",
    "DexRT.C36_roundtrip_sparse3",
    "DexRT.C36_refuted3"
   ],
   "note": "Full for 2D (device, host, single field) and for the 3D host and single-field variants, for every schedule and every map C03/C04/C41 can build. The 3D device multi-page variant is refuted for every non-empty grid: its copy loop tests z instead of y (MiscSparse.cpp:199) and leaves the arrays."
  },
  {
   "property": "C37",
   "status": "partial",
   "theorems": [
    "DexRT.C37_upper_bound",
    "DexRT.C37_interp_partial",
    "DexRT.C37_between",
    "DexRT.C37_refuted_nan",
    "DexRT.C37_refuted_empty"
   ],
   "note": "proved for every strictly increasing table and every real sample; FALSE for a NaN sample (C37_refuted_nan: reads one past the end of the table) and for an empty table"
  },
  {
   "property": "C38",
   "status": "partial",
   "theorems": [
    "DexRT.C38_box_success",
    "DexRT.C38_box_failure",
    "DexRT.C38_segment_partial",
    "DexRT.C38_update_origin",
    "DexRT.C38_rim_refuted",
    "DexRT.C38_negative_zero_refuted"
   ],
   "note": "Proved in exact arithmetic with IEEE infinities and NaN for every ray and box: clip_ray_to_box returns exactly the intersection (failure: at most one common point); RaySegment::clip returns exactly the intersection with the grid shrunk by the 1e-4 rim when no direction component is a negative zero. Refuted in full: the rim is thrown away, and a negative-zero component makes a ray on the inner boundary fail. Rounding is not modelled."
  },
  {
   "property": "C39",
   "status": "partial",
   "theorems": [
    "DexRT.C39_nonneg",
    "DexRT.C39_contiguous_partial",
    "DexRT.C39_terminates",
    "DexRT.C39_cover_partial",
    "DexRT.C39_uniform",
    "DexRT.C39_cell_partial",
    "DexRT.C39_level",
    "DexRT.C39_gap_refuted",
    "DexRT.C39_walk_in_refuted",
    "DexRT.C39_corner_refuted"
   ],
   "note": "Exact arithmetic, 2D and 3D, every ray, level pattern and number of steps: non-negative steps, termination, contiguity and coverage up to the 1e-3 / 0.011 that the code passes over at level changes, exact coverage at a uniform level, each step inside its cell away from corners. Refuted in full: pieces of the ray at level changes are in no step; a ray starting in an empty block within 1e-6 of a block with data is marched through wrong cells (11 cells away in the witness) and backwards; a sliver at each corner is put in a cell it only touches. Rounding is not modelled."
  },
  {
   "property": "C40",
   "status": "partial",
   "theorems": [
    "DexRT.C40_loop",
    "DexRT.C40_reported_partial",
    "DexRT.C40_refuted_nan"
   ],
   "note": "loop bound, no exit on extrapolated state and early-stop condition proved for every physics and oracle; \"change within tolerance\" is FALSE when populations become NaN (NaN changes are dropped by the reduction), C40_refuted_nan"
  },
  {
   "property": "C41",
   "status": "proved",
   "theorems": [
    "DexRT.C41_file2",
    "DexRT.C41_file3",
    "DexRT.C41_duplicates_accepted"
   ],
   "note": ""
  },
  {
   "property": "C42",
   "status": "partial",
   "theorems": [
    "DexRT.C42_children3_partial",
    "DexRT.C42_overflow3_refuted"
   ],
   "note": "holds whenever the 32-bit ray index does not overflow; refuted at cascade 6 with the default 3D constants"
  },
  {
   "property": "C43",
   "status": "partial",
   "theorems": [
    "DexRT.C43_powi_partial",
    "DexRT.C43_refuted"
   ],
   "note": "exact when the final squaring also fits; the last unused squaring overflows (UB) for some representable powers"
  },
  {
   "property": "C44",
   "status": "partial",
   "theorems": [
    "DexRT.C44_from_agreement",
    "DexRT.C44_fresh_partial",
    "DexRT.C44_refuted",
    "DexRT.C44_refuted_simple_pressure",
    "DexRT.C44_same_decision"
   ],
   "note": "FALSE for the first two iterations of a fresh charge-conserving run (nothing is broadcast after the LTE start-up) and with CONSERVE_PRESSURE_NR=false; proved otherwise; loop decisions always agree"
  },
  {
   "property": "C45",
   "status": "partial",
   "theorems": [
    "DexRT.C45_restores",
    "DexRT.C45_resume_partial",
    "DexRT.C45_refuted_ng"
   ],
   "note": "proved without Ng acceleration; FALSE with it (history and accelerated flag are not saved): C45_refuted_ng"
  },
  {
   "property": "C46",
   "status": "partial",
   "theorems": [
    "DexRT.C46_complete",
    "DexRT.C46_idle_partial",
    "DexRT.C46_refuted",
    "DexRT.C46_name"
   ],
   "note": "FALSE for crashes during save_snapshot (file is replaced in place): C46_refuted; proved for all other crash points"
  },
  {
   "property": "C47",
   "status": "partial",
   "theorems": [
    "DexRT.C47_charge_partial",
    "DexRT.C47_pressure_partial",
    "DexRT.C47_fixed_point",
    "DexRT.C47_others",
    "DexRT.C47_refuted_rescale",
    "DexRT.C47_refuted_rescale_witness",
    "DexRT.C47_refuted_clamp"
   ],
   "note": "proved for unclamped steps at constant density; FALSE with pressure conservation (hydrogen populations are rescaled a second time, C47_refuted_rescale) and when the step is clamped (negative populations, schedule dependent: C47_refuted_clamp)"
  },
  {
   "property": "C48",
   "status": "partial",
   "theorems": [
    "DexRT.C48_collisions_partial",
    "DexRT.C48_refuted",
    "DexRT.C48_refuted_detailed",
    "DexRT.C48_only"
   ],
   "note": "proved when no non-LTE atom follows a detailed one; FALSE otherwise, and detailed atoms are always updated"
  },
  {
   "property": "C49",
   "status": "partial",
   "theorems": [
    "DexRT.C49_governing",
    "DexRT.C49_grid",
    "DexRT.C49_strict",
    "DexRT.C49_order",
    "DexRT.C49_sampled_partial",
    "DexRT.C49_refuted_continuum"
   ],
   "note": "proved except sampling: lines are always sampled, a continuum under a coarser line can be left without any grid point (C49_refuted_continuum)"
  },
  {
   "property": "C50",
   "status": "proved",
   "theorems": [
    "DexRT.C50_hydrogen",
    "DexRT.C50_partition"
   ],
   "note": ""
  },
  {
   "property": "C51",
   "status": "partial",
   "theorems": [
    "DexRT.C51_net",
    "DexRT.C51_independent_partial",
    "DexRT.C51_paths",
    "DexRT.C51_nonneg"
   ],
   "note": "exact up to the constant 1e-20 added to the opacity, whose effect is given exactly by C51_net"
  },
  {
   "property": "C52",
   "status": "partial",
   "theorems": [
    "DexRT.C52_slots",
    "DexRT.C52_slots_3d_partial",
    "DexRT.C52_refuted_3d"
   ],
   "note": "2D proved in full. 3D: correct when the lines fit; refuted otherwise: the write past the array precedes the check, which never throws."
  },
  {
   "property": "C53",
   "status": "proved",
   "theorems": [
    "DexRT.C53_same_value",
    "DexRT.C53_same_value_3d",
    "DexRT.C53_total"
   ],
   "note": "Real arithmetic; Voigt function arbitrary."
  },
  {
   "property": "C54",
   "status": "partial",
   "theorems": [
    "DexRT.C54_emis_opac_partial",
    "DexRT.C54_modes",
    "DexRT.C54_sets",
    "DexRT.C54_planck_continuum",
    "DexRT.C54_planck_line",
    "DexRT.C54_any_wavelength",
    "DexRT.C54_on_grid",
    "DexRT.C54_classic_once",
    "DexRT.C54_edge_refuted"
   ],
   "note": "Everything except the last clause proved; refuted: at an arbitrary wavelength a continuum keeps its last cross-section up to the next grid point (or for ever at the end of the grid)."
  },
  {
   "property": "C55",
   "status": "proved",
   "theorems": [
    "DexRT.C55_normalised",
    "DexRT.C55_rates"
   ],
   "note": "Real arithmetic. Proviso: the profile does not integrate to zero on the grid (then the factor is one, also proved)."
  },
  {
   "property": "C56",
   "status": "partial",
   "theorems": [
    "DexRT.C56_lines_partial",
    "DexRT.C56_continua_refuted",
    "DexRT.C56_too_large",
    "DexRT.C56_hypothesis_from_lte"
   ],
   "note": "Lines proved. Continua refuted: the rate is 2 exp(hc/lambda k T) times the one of the formal solution."
  },
  {
   "property": "C57",
   "status": "partial",
   "theorems": [
    "DexRT.C57_fill_partial",
    "DexRT.C57_refuted"
   ],
   "note": "Proved when a continuum is active at the first wavelength of the batch or every wavelength refreshes; refuted otherwise: the 2D fill refreshes at the first wavelength only, and not even then if no continuum is active, so uninitialised memory is used."
  },
  {
   "property": "C58",
   "status": "proved",
   "theorems": [
    "DexRT.C58_geometry",
    "DexRT.C58_along_path",
    "DexRT.C58_forms",
    "DexRT.C58_up",
    "DexRT.C58_not_up",
    "DexRT.C58_table",
    "DexRT.C58_start"
   ],
   "note": "Real arithmetic."
  },
  {
   "property": "C59",
   "status": "partial",
   "theorems": [
    "DexRT.C59_bins",
    "DexRT.C59_total",
    "DexRT.C59_bounds",
    "DexRT.C59_interp_partial",
    "DexRT.C59_single_refuted"
   ],
   "note": "Everything proved for at least two wavelengths in file and run. Refuted for a run with one wavelength: out-of-bounds read."
  },
  {
   "property": "C60",
   "status": "proved",
   "theorems": [
    "DexRT.C60_arith",
    "DexRT.C60_value",
    "DexRT.C60_even",
    "DexRT.C60_nonneg",
    "DexRT.C60_wings"
   ],
   "note": "Real arithmetic, constants as the decimals written. Non-negativity by the maximum principle and a polynomial certificate evaluated by the kernel."
  },
  {
   "property": "C61",
   "status": "partial",
   "theorems": [
    "DexRT.C61_table_partial",
    "DexRT.C61_refuted"
   ],
   "note": "Proved for arguments within 2^31 steps of the table; refuted beyond: conversion to int overflows before the clamp. The table is not used in the default build."
  },
  {
   "property": "C62",
   "status": "proved",
   "theorems": [
    "DexRT.C62_mean_intensity2",
    "DexRT.C62_mean_intensity3",
    "DexRT.C62_all_wavelengths",
    "DexRT.C62_isotropic",
    "DexRT.C62_cascades_exist"
   ],
   "note": "Exact rational arithmetic; modes other than PREAVERAGE (disabled by static_assert). Grid sizes for which cell counts fit int, as the code requires."
  },
  {
   "property": "C63",
   "status": "partial",
   "theorems": [
    "DexRT.C63_file2_partial",
    "DexRT.C63_refuted2",
    "DexRT.C63_file3_partial",
    "DexRT.C63_refuted3"
   ],
   "note": "Refuted: in 3D every dense solution on a fully active grid (the default) is taken for a sparse one and written in tile order; in 2D the same happens for non-LTE runs with sparse_calculation and final_dense_fs. Proved in all other 2D cases and, in 3D, for sparse J on the host and for grids with a hole."
  },
  {
   "property": "C64",
   "status": "proved",
   "theorems": [
    "DexRT.C64_quadrature",
    "DexRT.C64_table",
    "DexRT.C64_isotropic"
   ],
   "note": "Table digits as written, read as exact decimals; integrals are Mathlib interval integrals over the reals."
  },
  {
   "property": "C65",
   "status": "partial",
   "theorems": [
    "DexRT.C65_direction_partial",
    "DexRT.C65_reported_partial",
    "DexRT.C65_refuted_vy",
    "DexRT.C65_refuted_norm",
    "DexRT.C65_view3",
    "DexRT.C65_pixels",
    "DexRT.C65_views3"
   ],
   "note": "Refuted: for every view out of the x-z plane the y velocity enters with the sign opposite to the reported direction; views with norm > 1 are divided by the squared norm, which scales the Doppler shift; in 3D the length of image_corner is not checked and a short list is read out of bounds. Proved: direction and Doppler for 2D views with norm <= 1 up to the sign of y, and exactly for views in the plane; 3D direction and pixel geometry for every non-zero view."
  },
  {
   "property": "C66",
   "status": "partial",
   "theorems": [
    "DexRT.C66_image_plane",
    "DexRT.C66_complete_partial",
    "DexRT.C66_truncated",
    "DexRT.C66_refuted_square",
    "DexRT.C66_refuted_face_on",
    "DexRT.C66_fixed_vertical_partial",
    "DexRT.C66_refuted_fixed",
    "DexRT.C66_segment",
    "DexRT.C66_complete3"
   ],
   "note": "Refuted: rays end after max(nx, nz) voxels, counted from an image plane at least one voxel outside the rotated box; on square grids every view loses part of the model, face on the bottom row is cut; without rotate_aabb inclined rays miss part of the model. Proved: the image plane covers the projection of every point of the model within half a cell; exactly which part is cut; rays are complete when max(nx, nz) suffices, and in 3D when the path fits in 8192 voxels."
  },
  {
   "property": "C67",
   "status": "proved",
   "theorems": [
    "DexRT.C67_intensity",
    "DexRT.C67_formal_solution",
    "DexRT.C67_bounds",
    "DexRT.C67_path_length",
    "DexRT.C67_depth"
   ],
   "note": "Real arithmetic; opacities are raised by 1e-20 as in the code."
  },
  {
   "property": "C68",
   "status": "partial",
   "theorems": [
    "DexRT.C68_boundary3",
    "DexRT.C68_boundary2_partial",
    "DexRT.C68_refuted_inclined"
   ],
   "note": "Refuted in 2D for views out of the x-z plane: the direction handed to the boundary condition is the one projected into the plane, so the limb darkening (and whether the Sun is hit at all) is wrong. Proved in 3D for all views and in 2D for views in the plane."
  },
  {
   "property": "C69",
   "status": "partial",
   "theorems": [
    "DexRT.C69_read",
    "DexRT.C69_names_unique",
    "DexRT.C69_linear_grid",
    "DexRT.C69_coll_tables_partial",
    "DexRT.C69_refuted_natural",
    "DexRT.C69_refuted_one_point",
    "DexRT.C69_refuted_empty",
    "DexRT.C69_refuted_inverted",
    "DexRT.C69_refuted_decreasing",
    "DexRT.C69_refuted_coll"
   ],
   "note": "Proved: exactly which files are rejected, and that accepted ones are read as written. Refuted that what is accepted can be used: lines without natural broadening leave an indeterminate width, one-point linear grids give NaN, empty grids and decreasing tables and short collision tables lead to out-of-bounds reads, inverted transitions are accepted."
  },
  {
   "property": "C70",
   "status": "partial",
   "theorems": [
    "DexRT.Config.C70_reads",
    "DexRT.Config.C70_accepts",
    "DexRT.Config.C70_rejects_partial",
    "DexRT.Config.C70_refuted"
   ],
   "note": "Proved: every setting of an accepted file is as written or the default; every valid file is accepted; unknown words, missing atoms or paths and cascades beyond the last are rejected. Refuted that all unusable files are rejected: max_cascade = -1 is accepted with no mip levels, an empty mip_levels list reads index -1."
  },
  {
   "property": "C71",
   "status": "partial",
   "theorems": [
    "DexRT.Config.C71_saves_partial",
    "DexRT.Config.C71_no_section_partial",
    "DexRT.Config.C71_refuted_no_section",
    "DexRT.Config.C71_refuted_given3",
    "DexRT.Config.C71_refuted_cascade",
    "DexRT.Config.C71_empty_section"
   ],
   "note": "Proved for every file with an output section and non-negative cascade numbers (3D: with atoms). Refuted: given source functions without an output section try to write LTE populations of absent atoms; the 3D program with a given source function cannot write J (host copy never allocated, grid size never set); negative cascade numbers are accepted and index outside; an empty section differs from none."
  },
  {
   "property": "C72",
   "status": "partial",
   "theorems": [
    "DexRT.Startup.C72_load2",
    "DexRT.Startup.C72_load3",
    "DexRT.Startup.C72_rejects",
    "DexRT.Startup.C72_start_partial",
    "DexRT.Startup.C72_refuted",
    "DexRT.Startup.C72_solution_forgets",
    "DexRT.Startup.C72_restart",
    "DexRT.Startup.C72_checks"
   ],
   "note": "Reading is proved for all maps and orders; starting from the file is proved without charge conservation. Refuted with charge conservation: the LTE iteration that follows the reading solves for all populations from scratch, so the run starts as if there was no file."
  },
  {
   "property": "C73",
   "status": "partial",
   "theorems": [
    "DexRT.Startup.C73_once_partial",
    "DexRT.Startup.C73_refuted"
   ],
   "note": "Proved for 2D, and for 3D unless restarting from a snapshot of iteration 200 or later, where nothing is solved (refuted)."
  },
  {
   "property": "C74",
   "status": "partial",
   "theorems": [
    "DexRT.Fs.C74_pass2",
    "DexRT.Fs.C74_static2",
    "DexRT.Fs.C74_J2",
    "DexRT.Fs.C74_static_J2",
    "DexRT.Fs.C74_pass3",
    "DexRT.Fs.C74_J3",
    "DexRT.Fs.C74_probes_dense2",
    "DexRT.Fs.C74_probes_sparse2_partial",
    "DexRT.Fs.C74_probes_dense3",
    "DexRT.Fs.C74_probes_sparse3",
    "DexRT.Fs.C74_buffers3_partial",
    "DexRT.Fs.C74_boundary_lost_refuted",
    "DexRT.Fs.C74_boundary_lost3_refuted"
   ],
   "note": "Proved with at least one cascade above the first, for the default ray configuration; the hypotheses on probe lists and buffers are proved for dense runs and sparse 3D runs, in sparse 2D only while the cascades are finer than a tile (C20). Refuted for max_cascade = 0: the boundary condition never reaches J."
  },
  {
   "property": "C75",
   "status": "proved",
   "theorems": [
    "DexRT.Fs.C75_bounds2",
    "DexRT.Fs.C75_equilibrium2",
    "DexRT.Fs.C75_superposition2",
    "DexRT.Fs.C75_monotone2",
    "DexRT.Fs.C75_J2",
    "DexRT.Fs.C75_bounds3",
    "DexRT.Fs.C75_equilibrium3",
    "DexRT.Fs.C75_superposition3",
    "DexRT.Fs.C75_monotone3",
    "DexRT.Fs.C75_J3"
   ],
   "note": "Exact arithmetic; for the runs C74 covers (at least one cascade above the first, probe lists closed under interpolation)."
  },
  {
   "property": "C76",
   "status": "partial",
   "theorems": [
    "DexRT.Dir.C76_unit2",
    "DexRT.Dir.C76_distinct2",
    "DexRT.Dir.C76_children2",
    "DexRT.Dir.C76_balanced2",
    "DexRT.Dir.C76_mu",
    "DexRT.Dir.C76_mean_velocity2",
    "DexRT.Dir.C76_oneside_refuted",
    "DexRT.Dir.C76_axis2",
    "DexRT.Dir.C76_unit3",
    "DexRT.Dir.C76_distinct3",
    "DexRT.Dir.C76_children3",
    "DexRT.Dir.C76_balanced3_partial",
    "DexRT.Dir.C76_isotropic3_refuted",
    "DexRT.Dir.C76_axis3",
    "DexRT.Dir.C76_horizontal3",
    "DexRT.Dir.C76_unit_other3"
   ],
   "note": "Refuted in part: in 2D only one sign of the direction cosine along the invariant axis is sampled, so a flow along it has a non-zero mean Doppler shift (C76_oneside_refuted); in 3D the second moments are diagonal but not isotropic (8/27 instead of 1/3 in the first cascade)."
  },
  {
   "property": "C77",
   "status": "partial",
   "theorems": [
    "DexRT.Dir.C77_segment2_partial",
    "DexRT.Dir.C77_vertical_refuted",
    "DexRT.Dir.C77_segment3",
    "DexRT.Dir.C77_cover2",
    "DexRT.Dir.C77_cover3",
    "DexRT.Dir.C77_frac_idx"
   ],
   "note": "Proved for 3D and for 2D whenever the number of directions is not 2 modulo 4; with PROBE0_NUM_RAYS = 2 or 6 some segment length is 0/0 (C77_vertical_refuted). Cover needs the last interval in order (C16)."
  },
  {
   "property": "C78",
   "status": "partial",
   "theorems": [
    "DexRT.C78_starts",
    "DexRT.C78_ends",
    "DexRT.C78_transfer",
    "DexRT.C78_exact",
    "DexRT.C78_uniform",
    "DexRT.C78_error_partial",
    "DexRT.C78_passed_over",
    "DexRT.C78_slant",
    "DexRT.C78_boundary",
    "DexRT.C78_alo",
    "DexRT.C78_inside_refuted",
    "DexRT.C78_alo_empty_refuted"
   ],
   "note": "Exact arithmetic, 2D and 3D. Exact solution of the medium of the cells when all cells are at one level, away from edges and corners (C78_exact) and, for uniform media, for all rays up to 3e-6 of path (C78_uniform); with several levels the error is bounded by the length passed over, which is bounded (C78_error_partial, C78_passed_over). What is computed is characterised for every pattern (C78_transfer). Opacity is used with its offset 1e-15. Refuted in part: with LAST_CASCADE_TO_INFTY a segment of the last cascade that starts inside the grid (grids beyond 2e4 cells) starts from the boundary intensity; the operator element of a ray that ends in an empty region is that of the last cell with data, not 0. The gathered emissivity and opacity are an arbitrary function of level and cell."
  },
  {
   "property": "C79",
   "status": "partial",
   "theorems": [
    "DexRT.Fs.C79_bounds2_partial",
    "DexRT.Fs.C79_equilibrium2",
    "DexRT.Fs.C79_superposition2",
    "DexRT.Fs.C79_monotone2",
    "DexRT.Fs.C79_dense2",
    "DexRT.Fs.C79_ray2",
    "DexRT.Fs.C79_bounds3_partial",
    "DexRT.Fs.C79_equilibrium3",
    "DexRT.Fs.C79_superposition3",
    "DexRT.Fs.C79_monotone3",
    "DexRT.Fs.C79_dense3",
    "DexRT.Fs.C79_ray3"
   ],
   "note": "Proved for the composition of the models of C12-C17, C24, C38, C39, C74, C76, C77, C78 in real arithmetic; the default merge (not pre-averaged), num_cascades above 0, HEALPix directions in 3D. Hypothesis Marches2/3 (the march of every ray ends) is proved for grids with data everywhere (C79_dense2/3); with empty regions it is C39/C78. Missing: floating point; J itself (C74, C75 give J from the intensities over the rationals); the emissivity and opacity of a cell are arbitrary functions of wavelength, direction, level and cell. Downgoing rays in a medium of constant S carry less than S (no boundary from above): C75_equilibrium with S > 0 is therefore about a boundary that lights all rays."
  },
  {
   "property": "C80",
   "status": "partial",
   "theorems": [
    "DexRT.C80_rates2",
    "DexRT.C80_rates3",
    "DexRT.C80_threads2",
    "DexRT.C80_preaverage",
    "DexRT.C80_photons",
    "DexRT.C80_fixed_point",
    "DexRT.C80_operator_partial",
    "DexRT.C80_detailed_balance",
    "DexRT.C80_black_body",
    "DexRT.C80_nonneg",
    "DexRT.C80_wphi2",
    "DexRT.C80_wphi3",
    "DexRT.C80_uniform"
   ],
   "note": "Real arithmetic. The full statement \"independently of the approximate operator\" fails in the program by the constant 1e-20 added to the opacity: C80_photons gives the exact effect (factor 1 - 1e-20 psi on the emission), C80_operator_partial proves independence without it. Preconditioned (hypothesis of C80_nonneg) is about the approximate operator the march gives (C78). The 3D kernel adds atomically, so C26_atomic applies to any distribution over threads. Detailed balance of lines is stated with the line source function: the Planck function at the line centre, not at each wavelength (C54)."
  },
  {
   "property": "C81",
   "status": "partial",
   "theorems": [
    "DexRT.AtmosFile.C81_dense2",
    "DexRT.AtmosFile.C81_dense3",
    "DexRT.AtmosFile.C81_sparse2",
    "DexRT.AtmosFile.C81_sparse3",
    "DexRT.AtmosFile.C81_detect",
    "DexRT.AtmosFile.C81_reject_dense2",
    "DexRT.AtmosFile.C81_reject_dense3",
    "DexRT.AtmosFile.C81_reject_sparse2",
    "DexRT.AtmosFile.C81_reject_sparse3",
    "DexRT.AtmosFile.C81_same2_partial",
    "DexRT.AtmosFile.C81_moving_refuted"
   ],
   "note": "The statement \"loads as the same model\" is proved for the map and the values (2D) and refuted for the moving flag (C81_moving_refuted): the dense load also looks at the cells that are thrown away. The flag is not read again by the solver. The 3D form of the re-save statement is not proved."
  },
  {
   "property": "C82",
   "status": "proved",
   "theorems": [
    "DexRT.Given.C82_J2",
    "DexRT.Given.C82_unique2",
    "DexRT.Given.C82_deterministic2",
    "DexRT.Given.C82_bounds2",
    "DexRT.Given.C82_dark2",
    "DexRT.Given.C82_wavelength2",
    "DexRT.Given.C82_superposition2",
    "DexRT.Given.C82_monotone2",
    "DexRT.Given.C82_rejects2"
   ],
   "note": "Exact real arithmetic; all probes computed (sparse_calculation = false, the default); an even number of tiles each way (odd numbers: see C35) and at most 2^31 cells. The 3D mode is not part of the property (C34 refutes its means, C71 that it can write J)."
  },
  {
   "property": "C83",
   "status": "partial",
   "theorems": [
    "DexRT.PopsField.C83_lte",
    "DexRT.PopsField.C83_total",
    "DexRT.PopsField.C83_saha_boltzmann_partial",
    "DexRT.PopsField.C83_nh0_model",
    "DexRT.PopsField.C83_nh0_lte",
    "DexRT.PopsField.C83_nh0_after_lte"
   ],
   "note": "Saha and Boltzmann only where no population is at the smallest normal number and the first level is in the lowest stage (C27_refuted_stage shows that the second condition is needed). That the first atom is hydrogen when there is a model of it is C33_hydrogen. Exact real arithmetic."
  },
  {
   "property": "C84",
   "status": "partial",
   "theorems": [
    "DexRT.VelInterp.C84_sample",
    "DexRT.VelInterp.C84_sample_bounded",
    "DexRT.VelInterp.C84_sample_refuted",
    "DexRT.VelInterp.C84_error",
    "DexRT.VelInterp.C84_range_partial",
    "DexRT.VelInterp.C84_width",
    "DexRT.VelInterp.C84_ray_partial",
    "DexRT.VelInterp.C84_mip",
    "DexRT.VelInterp.C84_range_refuted"
   ],
   "note": "Disagreement: the range does not cover all rays when the velocity has a component along y (C84_range_refuted: default quadrature, cell velocity (-3,-1,-1), cascade 3: 1.367 against an upper end of 1.350, after the 2 percent of safety, so the ray gets the value of the last bin). Proved for velocities in the plane (vy = 0, any inclinations between 0 and 1). Also: the bin number is converted to int before it is clamped, so a velocity more than 2^31 bins away is undefined behaviour. Exact real arithmetic; emis_opac itself is C53/C54."
  },
  {
   "property": "C85",
   "status": "partial",
   "theorems": [
    "DexRT.LineSweep.C85_lines",
    "DexRT.LineSweep.C85_storage",
    "DexRT.LineSweep.C85_lookup",
    "DexRT.LineSweep.C85_pieces",
    "DexRT.LineSweep.C85_extend",
    "DexRT.LineSweep.C85_grid_pos",
    "DexRT.LineSweep.C85_interp_partial",
    "DexRT.LineSweep.C85_on_line",
    "DexRT.LineSweep.C85_negative_refuted",
    "DexRT.LineSweep.C85_edge_refuted",
    "DexRT.LineSweep.C85_steps",
    "DexRT.LineSweep.C85_throws"
   ],
   "note": "Disagreements: (1) with the default PROBE0_LENGTH 1.5 and LINE_SWEEP_START_CASCADE 2, setting up line sweeping always throws (C85_throws; whole lengths work, C85_steps); (2) a probe before the first line gets weights outside [0, 1], because its position is truncated towards zero instead of rounded down: negative radiance and optical depth from non-negative samples (C85_negative_refuted: grid 64 x 64, direction 47 of 64, probe (0, 15) of cascade 2); bounds proved for the other probes (C85_interp_partial); (3) a probe whose interval lies outside the grid still gets the first sample, which holds medium nearer than its interval (C85_edge_refuted). Exact real arithmetic, directions without zero component, grids up to 2^28 wide and at least half a step and half a voxel; the march of one stretch is a parameter that composes (C78 for the march); merging with the upper cascade is C62/C74. The compiled-out do_log2_extensions is not modelled."
  },
  {
   "property": "C86",
   "status": "partial",
   "theorems": [
    "DexRT.LteRun.C86_lte2_partial",
    "DexRT.LteRun.C86_unique2",
    "DexRT.LteRun.C86_deterministic2",
    "DexRT.LteRun.C86_thermal2",
    "DexRT.LteRun.C86_rejects2",
    "DexRT.LteRun.C86_slots2"
   ],
   "note": "Composition of the models of C81, C83, C27, C50, C52-C54, C82. Partial: 2D, one rank, dense files without temperature threshold, CoreAndVoigt line scheme (the default), mip_levels all 0 (the default) and max_cascade > 0 (C74 refutes 0), exact real arithmetic; data in which a batch has continua but none at its first wavelength is excluded (C57: the LTE scratch is then read uninitialised); the wavelength distributor (C22) and the output file (C63) are separate."
  },
  {
   "property": "C87",
   "status": "partial",
   "theorems": [
    "DexRT.RayRun.C87_run_partial",
    "DexRT.RayRun.C87_full",
    "DexRT.RayRun.C87_deterministic",
    "DexRT.RayRun.C87_exact",
    "DexRT.RayRun.C87_bounds",
    "DexRT.RayRun.C87_rejects",
    "DexRT.RayRun.C87_refuted_levels"
   ],
   "note": "Partial: an output with fewer levels than the atoms is not rejected but read out of bounds (C87_refuted_levels). With a temperature threshold the traversal has the gaps of C39, so C87_run_partial asks that no ray starts in an inactive cell at a tile edge (GoodStarts); without threshold (C87_full) nothing is asked. Geometry of the rays is that of C65, C66, C68 (with their refutations), depth resolved outputs C67, tables of boundary light C59. Exact real arithmetic; 2D only. C87_exact is for rays that do not meet a grid corner or start on a face (C38)."
  },
  {
   "property": "C88",
   "status": "partial",
   "theorems": [
    "DexRT.Given3.C88_J3_partial",
    "DexRT.Given3.C88_unique3",
    "DexRT.Given3.C88_deterministic3",
    "DexRT.Given3.C88_bounds3",
    "DexRT.Given3.C88_dark3",
    "DexRT.Given3.C88_superposition3",
    "DexRT.Given3.C88_monotone3",
    "DexRT.Given3.C88_rejects3"
   ],
   "note": "Partial: exact arithmetic; mip_levels all 0 (default); HEALPix directions (default build), FORCE_LC_QUADRATURE off (default). The result cannot be written to the output file (C71), so the claim is about J when save_results is called."
  },
  {
   "property": "C89",
   "status": "partial",
   "theorems": [
    "DexRT.Nlte.C89_run_partial",
    "DexRT.Nlte.C89_ends_partial",
    "DexRT.Nlte.C89_deterministic_partial",
    "DexRT.Nlte.C89_positive",
    "DexRT.Nlte.C89_converged",
    "DexRT.Nlte.C89_fixed_point"
   ],
   "note": "Partial: exact arithmetic; one rank; dense file with threshold 0, mip levels all 0, all atoms Active; no charge or pressure conservation, Ng acceleration, restart or final dense pass; a zero pivot ends the model. Determinism over kernel orders, batch size, memory and place of J is proved for runs whose rates can be balanced (shown for Lambda iterations in C90)."
  },
  {
   "property": "C90",
   "status": "partial",
   "theorems": [
    "DexRT.Nlte.C90_solvable",
    "DexRT.Nlte.C90_light",
    "DexRT.Nlte.C90_J",
    "DexRT.Nlte.C90_first_partial",
    "DexRT.Nlte.C90_lambda"
   ],
   "note": "Partial: what C89 leaves out is left out here too; iterations with approximate operator can be shown to fail only by a zero pivot, positivity there is C80_nonneg under its hypothesis on the operator."
  },
  {
   "property": "C91",
   "status": "partial",
   "theorems": [
    "DexRT.Lte3.C91_lte3_partial",
    "DexRT.Lte3.C91_unique3",
    "DexRT.Lte3.C91_deterministic3",
    "DexRT.Lte3.C91_thermal3",
    "DexRT.Lte3.C91_rejects3",
    "DexRT.Lte3.C91_slots3_refuted"
   ],
   "note": "Refuted in one clause: too many overlapping lines are not rejected in 3D; every such run overruns the slot array (C91_slots3_refuted). Otherwise partial: exact arithmetic; one rank; dense file with threshold 0, mip levels all 0, all probes computed, at least one cascade above the first; no restart, charge conservation or file of initial populations (C72, C73)."
  },
  {
   "property": "C92",
   "status": "partial",
   "theorems": [
    "DexRT.RayRun3.C92_run_partial",
    "DexRT.RayRun3.C92_full",
    "DexRT.RayRun3.C92_deterministic",
    "DexRT.RayRun3.C92_exact",
    "DexRT.RayRun3.C92_bounds",
    "DexRT.RayRun3.C92_rejects",
    "DexRT.RayRun3.C92_refuted_levels",
    "DexRT.RayRun3.C92_refuted_dense",
    "DexRT.RayRun3.C92_refuted_corner"
   ],
   "note": "Refuted in three clauses: output in the default dense form always stops the tool with an error (C92_refuted_dense); an output with fewer levels than the atoms (C92_refuted_levels) and fewer image corners than views (C92_refuted_corner) are not rejected but read out of bounds. Otherwise partial: exact arithmetic; dense atmosphere file; directions not zero and without negative zeros (C38); with a threshold, no ray enters the grid in an empty tile that it leaves within 1e-6 (C39; C92_full needs no such hypothesis with threshold 0); rays are 8192 voxels long (C66)."
  },
  {
   "property": "C93",
   "status": "partial",
   "theorems": [
    "DexRT.Nlte3.C93_run_partial",
    "DexRT.Nlte3.C93_ends_partial",
    "DexRT.Nlte3.C93_deterministic_partial",
    "DexRT.Nlte3.C93_positive",
    "DexRT.Nlte3.C93_converged",
    "DexRT.Nlte3.C93_fixed_point"
   ],
   "note": "Partial: exact arithmetic; one rank; dense file with threshold 0, mip levels all 0, all atoms Active; no charge or pressure conservation, Ng acceleration, restart or final dense pass; a zero pivot ends the model. That overlapping lines fit the slots is a hypothesis because the 3D code does not check it (C91_slots3_refuted). Determinism over kernel orders, memory, slots and place of J is proved for runs whose rates can be balanced (shown for Lambda iterations in C94)."
  },
  {
   "property": "C94",
   "status": "partial",
   "theorems": [
    "DexRT.Nlte3.C94_solvable",
    "DexRT.Nlte3.C94_light",
    "DexRT.Nlte3.C94_J",
    "DexRT.Nlte3.C94_first_partial",
    "DexRT.Nlte3.C94_lambda"
   ],
   "note": "Partial: what C93 leaves out is left out here too; iterations with approximate operator can be shown to fail only by a zero pivot, positivity there is C80_nonneg under its hypothesis on the operator."
  },
  {
   "property": "C95",
   "status": "partial",
   "theorems": [
    "DexRT.Lookup.C95_init2",
    "DexRT.Lookup.C95_init3",
    "DexRT.Lookup.C95_dense2",
    "DexRT.Lookup.C95_dense3",
    "DexRT.Lookup.C95_sparse2",
    "DexRT.Lookup.C95_sparse3",
    "DexRT.Lookup.C95_state2",
    "DexRT.Lookup.C95_state3",
    "DexRT.Lookup.C95_formal3",
    "DexRT.Lookup.C95_formal2_partial",
    "DexRT.Lookup.C95_overflow2_refuted",
    "DexRT.Lookup.C95_overflow3_refuted"
   ],
   "note": "Partial: dense runs are refuted beyond 2^31-1 probes in 2D (the host counts them in 64 bits, the device in 32) and beyond 2^31-1 probes below the last plane in 3D; the last clause holds in sparse 2D runs only while cascades are finer than a tile or with data everywhere (C20_refuted)."
  },
  {
   "property": "C96",
   "status": "partial",
   "theorems": [
    "DexRT.Merges.C96_between",
    "DexRT.Merges.C96_top",
    "DexRT.Merges.C96_inner_partial",
    "DexRT.Merges.C96_alo",
    "DexRT.Merges.C96_alo_refuted",
    "DexRT.Merges.C96_joined",
    "DexRT.Merges.C96_centre_refuted",
    "DexRT.Merges.C96_exact",
    "DexRT.Merges.C96_cone"
   ],
   "note": "Partial: the upper bound of the inner reprojection is exceeded by a factor of at most 1+exp(-10000) because optical depths are cut off at 10000; the operator clause is refuted for the bilinear fix, which stores zero below the last cascade; the ray the bilinear fix takes as the centre of the fan is half an upper step off it, always on the same side. Real arithmetic; the direction cosine handed to the modified march (that of the original ray) and the stored optical depth are not modelled."
  },
  {
   "property": "C97",
   "status": "partial",
   "theorems": [
    "DexRT.LongChar.C97_sum",
    "DexRT.LongChar.C97_zeroed_partial",
    "DexRT.LongChar.C97_bounds_partial",
    "DexRT.LongChar.C97_stale_refuted",
    "DexRT.LongChar.C97_unmarked_refuted",
    "DexRT.LongChar.C97_marked"
   ],
   "note": "Partial: true only if the buffer of cascade 0 holds zeros beforehand - only the first direction of each probe is written but all are merged (11 of 12 entries in the default build), and the buffers are not initialised (refuted with a witness); and the mode returns before the block lookup is filled, so with zeroed memory every march gives nothing whatever the file holds (proved; with a filled lookup each march is the transfer along the path that ends at the probe, C97_marked). Real arithmetic; the weights and directions of the table are arbitrary; the buffer is followed over the directions of one wavelength."
  },
  {
   "property": "C98",
   "status": "partial",
   "theorems": [
    "DexRT.LcQuad.C98_nodes",
    "DexRT.LcQuad.C98_weights",
    "DexRT.LcQuad.C98_cubic",
    "DexRT.LcQuad.C98_sphere",
    "DexRT.LcQuad.C98_exact",
    "DexRT.LcQuad.C98_mirror",
    "DexRT.LcQuad.C98_distinct",
    "DexRT.LcQuad.C98_between",
    "DexRT.LcQuad.C98_J_partial"
   ],
   "note": "Partial: the unit lengths, weights and second moments hold within 1e-8, 2e-8 and 3e-8 (the tables have eight digits; the weights of the set of 24 sum to 1+8e-9), the symmetric parts exactly; the clause about J needs the zeroed buffer of C97. Literals are taken as exact rationals."
  },
  {
   "property": "C99",
   "status": "partial",
   "theorems": [
    "DexRT.Merges3.C99_value",
    "DexRT.Merges3.C99_between",
    "DexRT.Merges3.C99_top",
    "DexRT.Merges3.C99_joined",
    "DexRT.Merges3.C99_length"
   ],
   "note": "Partial: HEALPix directions only, the intensity only (not optical depth nor approximate operator), 32-bit products assumed to fit. A joined ray of length zero, possible only when two probes are as far apart as the interval is long (C99_length), divides by zero in the code and has direction zero in the model."
  }
 ]
}