# DESIGN

Formal model (Lean 4.33, core + single Mathlib modules) of Goobley/DexRT. Plan
written before the proofs; the status of each claim is in MANIFEST.json.

Layout: `lean/Verif/Model/*` executable model, each definition citing /repo lines;
`lean/Verif/Lemmas/*` helper lemmas; `lean/Verif/Props/*` one file per property
group, with a small specification, the property theorems and non-vacuity examples.

## Conventions
* `i32`/`i64` are `Int` unless overflow matters; where the code can overflow the
  model returns `none` (UB) and the theorem carries the exact precondition.
* `uint32_t`/`u64` bit tricks are `BitVec`.
* floating point is modelled by an exact ordered field (`Real`/`Rat`); rounding is not modelled.
* parallel loops are modelled as folds; when the property is about scheduling the order is universally quantified.

## Plan per property
* **C01 2D tile codes are lossless** - `part/compact/encode/decode` as `BitVec 32` functions line for line; bit-extensional proof of round trips (finite set of 32 output bits, each a fixed input bit), aliasing witness beyond the limit.
* **C02 3D tile codes are lossless** - same, 3D masks.
* **C03 A dense grid map indexes every tile exactly once** - `setup_dense` as list program: enumerate, encode, insertion-sort by code, fold of lookup writes; bijection proved from sortedness-independent permutation facts and C01/C02 injectivity.
* **C04 A sparse grid map activates exactly the tiles that contain cold cells** - `setup_sparse` over an abstract temperature field; early-return scan modelled as a fold; same bijection lemmas with a filter.
* **C05 Cell storage is a bijection that all three address functions agree on** - index arithmetic on `Int` with arithmetic shifts; round trip and surjectivity.
* **C06 The tile cache in the index generator never changes an answer** - `IndexGen` as state machine (cache key, base); induction over histories of queries against a stateless spec. Expected to fail for the default key (-1,-1): refute with witness, prove partial.
* **C07 The tile cache in the mip-level index generator never changes an address** - `MultiLevelIndexGen` state machine; invariant on cache; induction over histories.
* **C08 Mip storage ranges never overlap and fit the allocated buffer** - `mip_offsets` prefix sums; disjoint/cover by induction over levels.
* **C09 Packed mip entries read back what was packed** - `BitVec 64` words; OR-fold of shifted entries; get/pack round trip and flat index bijection.
* **C10 A flattened parallel loop visits every index tuple exactly once** - div/mod unpack with checked i32 products (overflow = UB = none); bijection on Nat boxes.
* **C11 Work division covers every iteration exactly once** - the loop as fuel-free well-founded recursion; coverage proof.
* **C12 Probe storage addresses are injective and in bounds (2D)** - address polynomial; mixed-radix injectivity.
* **C13 Probe storage addresses are injective and in bounds (3D)** - same, 3D.
* **C14 Direction-by-direction passes partition the directions** - interval partition arithmetic.
* **C15 Merging reads every upper ray exactly once** - ray-child arithmetic.
* **C16 Ray intervals of successive cascades tile the line** - interval arithmetic over rationals/reals.
* **C17 Cascade buffers are large enough and never aliased during a merge** - buffer sizing: monotonicity of cascade sizes; parity of ping-pong index.
* **C18 Bilinear probe interpolation is a convex combination of existing probes** - integer corner arithmetic + rational weights.
* **C19 Trilinear probe interpolation is a convex combination of existing probes** - same in 3D.
* **C20 Sparse 2D cascades compute every probe a merge needs** - marking kernels as set-valued functions; closure under merge support; refutation by concrete map, partial theorem under a side condition.
* **C21 Sparse 3D cascades compute every probe a merge needs** - 3D marking is a gather; closure proved in full.
* **C22 Every wavelength is solved exactly once per pass** - transition system: rank-0 counter, requests of the other ranks in any interleaving, reset; exactly-once by invariant; race between first-pass requests and reset refuted, partial for schedules where reset comes first.
* **C23 Merging radiance intervals is associative with a transparent identity** - real-valued semantics with `Real.exp`.
* **C24 The ray march never over- or under-shoots its sources** - fold over steps; convexity by induction.
* **C25 Statistical equilibrium conserves the number of atoms** - matrix assembly over any field; sums by `Finset` algebra.
* **C26 Rate accumulation does not depend on thread or rank scheduling** - commutative-monoid fold: permutation and partition invariance.
* **C27 LTE populations add up to the total** - real-valued Saha-Boltzmann fold.
* **C28 Collisions alone drive populations to LTE** - each rate formula, detailed balance.
* **C29 Ng acceleration leaves converged solutions alone and only fires when allowed** - state machine of the accelerator; weights algebra.
* **C30 Pressure conservation restores the gas pressure** - algebra per cell; clamp branch refuted.
* **C31 Wavelength integration weights add up to the transition's range** - telescoping sum over lists.
* **C32 Each wavelength knows exactly its active transitions** - list program of the active-set construction; exactness by induction.
* **C33 Concatenated atomic data keeps atoms disjoint** - prefix-sum starts.
* **C34 Mip averaging preserves the mean** - sums over 2x2(x2) blocks.
* **C35 A tile's stored mip level is justified and storable** - state machine of level selection per tile.
* **C36 Sparse fields rehydrate to the original on active cells** - functions on maps using C05.
* **C37 Table interpolation is clamped, exact at nodes and never reads outside** - binary search + interpolation over ordered field.
* **C38 Ray clipping returns exactly the part of the ray in the grid** - slab intersection over an ordered field; zero direction components handled as in the code.
* **C39 Grid traversal visits contiguous intervals that cover the ray** - step machine over an ordered field; invariants.
* **C40 The non-LTE iteration always stops and never ends on an extrapolated state** - loop state machine over an arbitrary sequence of changes.
* **C41 A map read from a sparse atmosphere file numbers exactly the listed tiles** - reader as list program; file contents are arbitrary, so bounds and distinctness are hypotheses and their absence is refuted.
* **C42 Merging reads every upper ray exactly once (3D)** - ray-child arithmetic on the octahedral direction grid.
* **C43 Integer powers are exact** - `powi` loops with checked overflow against `b ^ n`.
* **C44 All ranks iterate on the same state** - product of the loop machine of every rank; agreement as invariant; early disagreement refuted.
* **C45 Restarting from a snapshot resumes the run** - save/restore as functions on the loop state; simulation between restarted and uninterrupted run; refuted for the accelerator's history.
* **C46 A crash never costs more than the work since the last snapshot** - trace of file operations, crash after any prefix.
* **C47 Charge conservation leaves a neutral plasma with the right number of atoms** - Newton system and update algebra per cell.
* **C48 Each atom gets its own collisional rates** - index mapping between all atoms and active atoms as list program.
* **C49 The global wavelength grid is well defined** - grid construction as list program; sortedness, coverage, sampling.
* **C50 LTE hydrogen split is consistent** - real algebra.
* **C51 Preconditioning does not change the solution** - rates with and without approximate operator at a fixed point.
* **C52, C53 Precomputed line data** - slot filling as a list program with out-of-bounds writes as UB; sum over slots equals sum over active lines by a permutation argument.
* **C54 Emissivity and opacity are the textbook sums** - the loops as folds, a separate specification of the textbook formulas, Planck function at LTE.
* **C55 Line profiles are normalised on the quadrature used** - double sums.
* **C56 Populations without radiation** - comparison of the two formulas; refuted for continua.
* **C57 LTE populations used for a cell** - the wavelength loop threading the scratch array, whose initial content is universally quantified.
* **C58 boundary light comes from the Sun** - `chromo_ray_mu`, `vector_chromo_ray_mu`, table lookup over the reals; specification: points of the backward path on the sphere of radius Rs and the cosine with the normal there.
* **C59 flux-conserving resampling** - edges, pointer loops and partial bins of `load_bc` over any ordered field; specification: flux of a step profile as sum of overlaps; induction over output bins with an invariant for both pointers.
* **C60 Voigt profile** - `DexComplex` operators and `humlicek_wei24_voigt`; refinement into Mathlib's complex numbers; sign by the maximum principle after the map (L-z)/(L+z), with a positivity certificate on three intervals checked by the kernel.
* **C61 Voigt table** - `VoigtProfile::operator()` with table over any floor ring.
* **C62 mean intensity** - `merge_c0_to_J`, `merge_c0_to_J_3d`, `DeviceProbesToCompute`, plane copies; iteration order a permutation; induction over the schedule, the direction passes (C12/C13 storage bijection) and the wavelength batches.
* **C64 inclination quadrature** - the tables of Config.hpp as rationals; moments evaluated by the kernel, extended to every polynomial by linearity.
* **C63 J in the output file** - `allocate_J`, the final dense solution switch and the J part of `save_results`, on top of C36/C62; counting of active tiles; the size test that tells sparse from dense is refuted on fully active grids.
* **C65 line of sight** - `compute_ray_set` and the Doppler velocity of both ray tracers over the reals; refutations by symbolic comparison with the reported direction.
* **C66 coverage** - image plane with `acos`/rotation evaluated symbolically (the rotation is eliminated in `Lemmas/Ray`), start points, segment ends; coverage and the exact cut-off.
* **C67 intensity along a ray** - loop as a fold, compared with the recursive specification in `Spec/Ray.lean` by induction; depth arrays with checked writes for every schedule.
* **C68 Sun behind the model** - the direction handed over, on top of the sphere geometry of C58.
* **C69 reading model atoms** - `parse_crtaf_model` on the decoded tree, sort as any sorted permutation; exact characterisation of rejection by case analysis and induction over the entry lists; witnesses for accepted but unusable files.
* **C70 configuration** - `parse_dexrt_config` on the decoded tree, all keys; specification lists each setting as a function of the keys; by case analysis, induction over the atoms and list indexing for the mip levels.
* **C71 output variables** - the selection in `save_results` (2D and 3D) with the arrays that exist per mode; set of variables characterised for all configurations; witnesses for the failing ones.
* **C72 initial populations** - `load_initial_pops` as write loops over levels and cells (C36 lemmas), start-up sequence with arbitrary physics whose rate solution does not depend on the old populations (C25); induction over the LTE passes.
* **C73 LTE runs** - loop entry conditions with the settings that C70 shows LTE mode to have.
* **C74 formal solution** - kernels as loops over arbitrary permutations of their iterations on the actual buffers, drivers as lists of kernel calls; spec is a recursion over cascades with tent-function interpolation weights; invariant: the buffer of the cascade above holds the spec for every probe the lower cascade reads (C13-C17, C20, C21 for addresses and lists), J by C62.
* **C75 bounds, equilibrium, superposition, monotonicity** - interpolation weights are non-negative with sum one, so each merge is a convex combination; induction over cascades from the C24 bounds on a ray.
* **C76 directions** - real angles; 2D sums by telescoping `2 sin(h/2) cos(x)`, HEALPix indices through the bit lemmas of C08 (even and odd bits, induction on the order), sums over faces by four-fold rotation and the point reflection, distinctness by case analysis on cap/equator, non-vanishing components from the irrationality of pi.
* **C77 segments** - set of visited points equals a specification set; cover by C16.
* **C78 whole march** - `raymarch` composes the models of C38, C39 and C24; the fold over the visited states is shown to be the solution of the transfer equation (Mathlib `HasDerivAt`) by induction on the visited list, one slab at a time (mean value theorem); starts by counting the axes whose first face is near; exactness by an invariant that each state is the cell of its points.
* **C79 end to end** - `World` (atmosphere as functions), `MarchRay2/3` connect the ray segments (C76, C77), the march (C78) and the kernels (C74). Bounds, equilibrium, superposition and monotonicity by induction over the cascades restricted to the rays that exist; upgoing rays split into upgoing rays (direction angles in 2D, HEALPix pixel coordinates in 3D); `C79_ray2/3` by `C78_uniform` and the geometry of the segment.
* **C80 radiative rates** - `Model/RadGamma` models both kernels with their loops, index computations and reads, the calls over passes, batches and ranks, and the profile normalisation; result: list of additions. By induction over the loops each additions list totals a value; the passes partition the directions (sums over ranges), the batches partition the wavelengths (`Perm`), the cells are distinct; the sum over active transitions is a sum over `Fin` with the conditions. Net rates: algebra per transition (`pair_gain`, `line_net`, `cont_net`). Normalisation: `normRays2/3` list the same rays as `raySet2/3`, then C55.
* **C81 model atmosphere** - `Model/AtmosFile`: a file is what the loaders see of it (dimensions, scalars, arrays, attributes), the loads are sequences of reads that throw, the sparsify kernels those of C36, the reduction a tree of chunks and joins (any shape). The maximum is characterised through `FloatLaws` (IEEE comparisons: NaN compares false), tiles through C04, values through C36.
* **C82 GivenFs end to end (2D)** - `Model/GivenFs`: the file as in C81, the copies as kernels of C36, the mip chain of C34, the packed levels of C35/C09, the march of C78/C79 through a world read from the arrays, the cascades of C74 and the merge of C62, batch after batch. `Spec/GivenFs` describes the atmosphere of the file without arrays (`fileWorld`, block means) and the level of a tile (`IsLevel`); the proof shows that the world read from memory and the world of the file agree wherever the march looks, batch by batch, and inherits bounds, superposition and monotonicity from C79.
* **C83 populations of the atmosphere** - `Model/PopsField`: the populations as flat memory, `slice_pops` as an address computation, `lte_pops` as its two loops on that memory, threads of all atoms and cells in any order. Refined to the per-cell function of C27 by a frame argument (rows of different atoms are disjoint, C33).
* **C84 velocity table** - `Model/VelInterp`: the search for the extreme projections with NaN angles as `none`, the fill and the sampling with the int conversion as a possible UB, the coarser levels. Coverage by a case analysis on whether the angle of the velocity lies in the range (cosine is largest at an end otherwise); error bound by convexity; refutation by a numerical witness with bounds on pi, sin and cos.
* **C85 line sweeping** - `Model/LineSweep`: clipping, the search on both sides (loops with fuel, proved to end), storage indices, the two searches of the flat index, the extension by teams in any order, the interpolation with int conversions as possible UB. Lines by concavity of the length of the chord over the family; extension by composition of marches; refutations with a real direction of cascade 2.
* **C86 Lte run** - `Model/LteRun` composes the models of the loader, populations, neutral hydrogen, filling of emissivity and opacity, line slots, march, cascades and J. Proof: the arrays hold, at the address of each cell, the quantities of the cell (`Lemmas/LteStart`, `LteCells`), so the march through the arrays is the march through the gas (`LteBatch`); then determinism by uniqueness of marches and of the Saha solution, thermal bounds by C54 and convexity (`LteSolve`).
* **C87 dexrt_ray** - `Model/RayRun` composes configuration, loader (C81), update of densities and populations from the output, emissivity per cell (C54), ray set (C65), traversal (C39), integration (C66-C68), reuse of arrays between views. Proof: loaded arrays hold at each cell's address what the files say of the cell (`Lemmas/RayStart`, `RayCells`), each ray meets only kept cells (`RayRays`), loops over rays, wavelengths, views by induction (`RayLoop`); exactness by C23/C39 slabs (`RayExact`).
* **C88 GivenFs 3D** - `Model/GivenFs3` composes the loader (main_3d.cpp:54-102), the copy of one wavelength, the tile lookup, the march of StaticFormalSolution3d.cpp:16-58 over the two level traversal, the merge of cascades and the merge to J. Specification: `Spec/GivenFs3`, the cells of the file met by each ray, transfer through them, and the cascade recursion, on the cells of the file and not on the arrays. Proof: the arrays hold the file's values at each cell's address and every cell of the grid is found (`Lemmas/GivenFs3`), each march reads only cells of the grid (`GivenMarch3`), one wavelength (`GivenBatch3`), all wavelengths (`GivenSolve3`); bounds, superposition and monotonicity by induction over the cascades from the specification alone.
* **C89 NonLte run 2D** - `Model/NlteRun` composes the LTE start (C86), `compute_nh0` (C83), collisions (C28), profile normalisation and rates (C80), the batches of wavelengths with their cascades (C74), J (C63, C76) and statistical equilibrium (C25) into the loop of main.cpp:980-1050. Specification: `Spec/NlteRun`, one iteration on the cells of the grid: light, rates, balance; and `Trace`, a sequence of iterations. Proof: invariant `Holds` (arrays hold the populations of each cell at its address) kept by every iteration (`NlteState`, `NlteColl`, `NlteBatch`, `NlteSolve`, `NlteStat`, `NlteIter`), induction over iterations (`NlteLoop`).
* **C90 Lambda iterations** - Specification `PhysicalRun` (signs of the data, connected collisions). Proof: a march step adds non-negative light whatever the sign of the opacity (`NlteLambda`), the merge has non-negative weights, so all arriving intensities, profile sums and rates are non-negative; collisions give the connection; C25 then gives positive populations; induction over the trace of C89. Determinism of C89 (`NlteUnique`): light, rates and balance determine the next populations, the stop rule the number of iterations.
* **C91 Lte run 3D** - Model `LteRun3`: loader (C81), populations and neutral hydrogen (C83), per wavelength `fill_mip0_atomic`, line slots (C52), march, cascades, merge (C88) composed as in main_3d.cpp. Specification `Spec/LteRun3`: the gas of a cell by C54's sums, the march of C78, the cascades of C74. Proof: cell arrays hold the specified values whatever the schedule (`LteStart3`, `LteCells3`), so every ray is the specified ray (`LteBatch3`); uniqueness and bounds through the march (`LteSolve3`); the first wavelength with too many lines is undefined behaviour.
* **C92 dexrt_ray_3d end to end** - Model `RayRun3`: parsing, loader (C81), lookup (C09), densities and populations from the output, per view and wavelength the cell kernel (C54) and the rays (`Ray`, C39, C67) composed as in dexrt_ray_3d.cpp. Specification `Spec/RayRun3`: result of a model run by cell, centre of a pixel, line of sight, gas of a cell, stack of visited cells. Proof: as C87, by `RayStart3`, `RayCells3`, `RayRays3`, `RayLoop3`.
* **C93 NonLte run 3D** - `Model/NlteRun3` composes the 3D LTE start (C91), `compute_nh0` (C83), collisions (C28), profile normalisation and rates (C80), the wavelengths with their cascades and subsets of rays (C74, C91), J (C64) and statistical equilibrium (C25) into the loop of main_3d.cpp:807-880. Specification `Spec/NlteRun3`, as Spec/NlteRun with the HEALPix rays. Proof: as C89, in `Nlte3State`, `Nlte3Coll`, `Nlte3Gamma`, `Nlte3Batch`, `Nlte3Batch2`, `Nlte3Solve`, `Nlte3Stat`, `Nlte3Iter`, `Nlte3Loop`.
* **C94 Lambda iterations 3D** - As C90, over Spec/NlteLambda3: a march step adds non-negative light, the trilinear merge has non-negative weights (`Nlte3Lambda`); uniqueness of an iteration (`Nlte3Unique`) gives the determinism of C93.
* **C95 probe lookup** - Model/ProbeLookup (ProbesToCompute.cpp whole) with the device half of MeanJ; dense indices by division with remainder and the exact range of the i32 products, sparse by the lists of C20/C21, then `Probes2Ok`/`Probes3Ok` of C74 for the objects made from the state.
* **C96 selectable merges** - Model/Merges (RadianceCascades.hpp 90-614) over an arbitrary march of a ray's geometry; convexity of the bilinear weights (C13), of the mean over upper rays and of the two-direction interpolation; atan2 as the argument of a complex number.
* **C97 long characteristics** - Model/LongChar (StaticFormalSolution3d.cpp 179-330) on the memory and march of C88; invariant over the directions: the entries that are not the first direction of a probe keep what they held; a lookup without entries makes every step of the march inert.
* **C98 quadratures** - Model/LcQuad (UserConfig3d.hpp 84-114, generated literally); all moments up to degree three of the integer tables are evaluated by the kernel, the statement about all fields follows by linearity.
* **C99 trilinear fix (3D)** - Model/Merges3 (march_and_merge_trilinear_interval_3d, trilinear_probe_ray; the march of a ray is an arbitrary function of its geometry). Value: the eight samples are regrouped into a sum over all upper probes with the axis weights of C13/C37; bounds: induction over the loops; joined rays: algebra on the ends.

## Trusted base
* Lean 4.33.0's kernel, and the reading of the theorem statements and of the small specifications in `Verif/Spec` and at
  the top of each `Verif/Props` file.
* Axioms: no axiom is declared in this project. Every theorem depends on a subset of Lean's three standard axioms
  `propext`, `Classical.choice`, `Quot.sound`; `Lean.ofReduceBool` and `Lean.trustCompiler` occur nowhere.
* The correspondence of each model definition with the C++ lines its comment cites: it was written by reading and is not
  machine-checked. The C++ compiler, Kokkos/YAKL, MPI, NetCDF, MAGMA/KokkosKernels and the hardware are outside.

### Axioms of each manifest theorem
<!-- axioms:begin -->
* **Classical.choice, Quot.sound, propext** (526): C01_decode_encode, C01_encode_decode, C01_injective, C01_alias, C01_interleave, C02_decode_encode, C02_encode_decode, C02_injective, C03_dense2, C03_dense3, C03_reject2, C03_reject3, C04_sparse2, C04_sparse3, C04_reject2, C04_reject3, C05_bijection2, C05_bijection3, C06_cache2_partial, C06_cache3_partial, C06_refuted2, C06_refuted3, C07_idx2, C07_idx3, C07_level2, C07_level3, C08_storage, C08_loop_agree2, C08_loop_agree3, C09_packed2, C09_packed3, C10_flat_loop, C10_many_loops_overflow, C11_team_split, C11_team_shape, C11_gpu_launch, C12_storage, C12_preaverage, C12_shapes_agree, C13_storage, C14_partition2, C14_partition3, C14_children_in_pass2, C15_children2, C15_preaverage, C16_intervals2, C16_ordered2, C16_default_limit, C16_intervals3, C16_last3_partial, C16_last3_refuted, C17_buffers, C17_sizes3_partial, C18_convex, C18_linear, C19_convex, C19_linear, C20_lists, C20_schedule, C20_fine_partial, C20_partial, C20_all_active_partial, C20_refuted, C21_closed, C22_partial, C22_never_twice_partial, C22_none_missed, C22_all_told, C22_static, C22_given, C23_associative_partial, C23_identity, C23_refuted_without_tau, C23_path, C23_interpolate, C24_between, C24_nonneg, C24_tau, C24_chi, C24_alo, C24_cascades, C24_mean_intensity, C24_incl_weights, C25_columns, C25_conserves, C25_defined, C25_unique, C25_any_elimination, C25_positive, C25_fixed_point, C25_change, C25_disconnected, C26_plain, C26_plain_needs_ownership, C26_ranks, C27_total, C27_saha_boltzmann_partial, C27_unique, C27_refuted_stage, C28_rates, C28_scaling, C28_equilibrium_partial, C28_refuted_charge_exchange, C28_ne_pert_restores, C29_weights, C29_defined_iff, C29_converged_partial, C29_exact, C29_refuted_identical, C29_refuted_few_cells, C29_refuted_conservation, C29_refuted_positive, C30_pressure_partial, C30_change, C30_clamp_iff, C30_refuted_clamp, C31_total, C31_range_partial, C31_refuted, C32_slice_partial, C32_layout, C32_index, C32_refuted, C33_concat, C34_mean2_partial, C34_mean3_vel, C34_emis3_refuted, C34_emis3_const_refuted, C34_total2, C34_total3, C34_const, C34_bounds, C35_entry_partial, C35_too_deep_refuted, C35_uniform_passes, C35_uniform3_refuted, C36_sparsify2, C36_rehydrate2, C36_roundtrip_dense2, C36_roundtrip_sparse2, C36_active_map, C36_sparsify3, C36_rehydrate3_partial, C36_roundtrip_dense3, C36_roundtrip_sparse3, C36_refuted3, C37_interp_partial, C37_between, C37_refuted_nan, C38_box_success, C38_box_failure, C38_segment_partial, C38_update_origin, C38_rim_refuted, C38_negative_zero_refuted, C39_nonneg, C39_contiguous_partial, C39_terminates, C39_cover_partial, C39_uniform, C39_cell_partial, C39_level, C39_gap_refuted, C39_walk_in_refuted, C39_corner_refuted, C40_loop, C40_reported_partial, C41_file2, C41_file3, C42_children3_partial, C43_powi_partial, C44_refuted, C44_refuted_simple_pressure, C45_refuted_ng, C46_refuted, C46_name, C47_charge_partial, C47_pressure_partial, C47_fixed_point, C47_others, C47_refuted_rescale, C47_refuted_rescale_witness, C47_refuted_clamp, C48_collisions_partial, C49_governing, C49_grid, C49_strict, C49_order, C49_sampled_partial, C49_refuted_continuum, C50_hydrogen, C50_partition, C51_paths, C51_nonneg, C52_slots, C52_slots_3d_partial, C52_refuted_3d, C53_same_value, C53_same_value_3d, C53_total, C54_emis_opac_partial, C54_modes, C54_sets, C54_planck_continuum, C54_planck_line, C54_any_wavelength, C54_on_grid, C54_classic_once, C54_edge_refuted, C55_normalised, C55_rates, C56_lines_partial, C56_continua_refuted, C56_too_large, C56_hypothesis_from_lte, C57_fill_partial, C57_refuted, C58_geometry, C58_along_path, C58_forms, C58_up, C58_not_up, C58_table, C58_start, C59_bins, C59_total, C59_bounds, C59_interp_partial, C59_single_refuted, C60_arith, C60_value, C60_even, C60_nonneg, C60_wings, C61_table_partial, C61_refuted, C62_mean_intensity2, C62_mean_intensity3, C62_all_wavelengths, C62_isotropic, C62_cascades_exist, C63_file2_partial, C63_refuted2, C63_file3_partial, C63_refuted3, C64_quadrature, C64_table, C64_isotropic, C65_direction_partial, C65_reported_partial, C65_refuted_vy, C65_refuted_norm, C65_view3, C65_pixels, C65_views3, C66_image_plane, C66_complete_partial, C66_truncated, C66_refuted_square, C66_refuted_face_on, C66_fixed_vertical_partial, C66_refuted_fixed, C66_segment, C66_complete3, C67_intensity, C67_formal_solution, C67_bounds, C67_path_length, C67_depth, C68_boundary3, C68_boundary2_partial, C68_refuted_inclined, C69_read, C69_linear_grid, C69_coll_tables_partial, C69_refuted_natural, C69_refuted_one_point, C69_refuted_empty, C69_refuted_inverted, C69_refuted_decreasing, C69_refuted_coll, Config.C70_reads, Config.C70_accepts, Config.C70_rejects_partial, Config.C70_refuted, Config.C71_saves_partial, Config.C71_no_section_partial, Config.C71_refuted_no_section, Config.C71_refuted_given3, Config.C71_refuted_cascade, Config.C71_empty_section, Startup.C72_load2, Startup.C72_load3, Startup.C72_rejects, Startup.C72_start_partial, Startup.C72_refuted, Startup.C72_solution_forgets, Startup.C72_restart, Startup.C72_checks, Startup.C73_once_partial, Startup.C73_refuted, Fs.C74_pass2, Fs.C74_static2, Fs.C74_J2, Fs.C74_static_J2, Fs.C74_pass3, Fs.C74_J3, Fs.C74_probes_dense2, Fs.C74_probes_sparse2_partial, Fs.C74_probes_dense3, Fs.C74_probes_sparse3, Fs.C74_buffers3_partial, Fs.C74_boundary_lost_refuted, Fs.C75_bounds2, Fs.C75_equilibrium2, Fs.C75_superposition2, Fs.C75_monotone2, Fs.C75_J2, Fs.C75_bounds3, Fs.C75_equilibrium3, Fs.C75_superposition3, Fs.C75_monotone3, Fs.C75_J3, Dir.C76_unit2, Dir.C76_distinct2, Dir.C76_children2, Dir.C76_balanced2, Dir.C76_mu, Dir.C76_mean_velocity2, Dir.C76_oneside_refuted, Dir.C76_axis2, Dir.C76_unit3, Dir.C76_distinct3, Dir.C76_children3, Dir.C76_balanced3_partial, Dir.C76_isotropic3_refuted, Dir.C76_axis3, Dir.C76_horizontal3, Dir.C76_unit_other3, Dir.C77_segment2_partial, Dir.C77_vertical_refuted, Dir.C77_segment3, Dir.C77_cover2, Dir.C77_cover3, Dir.C77_frac_idx, C78_starts, C78_ends, C78_transfer, C78_exact, C78_uniform, C78_error_partial, C78_passed_over, C78_slant, C78_boundary, C78_alo, C78_inside_refuted, C78_alo_empty_refuted, Fs.C79_bounds2_partial, Fs.C79_equilibrium2, Fs.C79_superposition2, Fs.C79_monotone2, Fs.C79_dense2, Fs.C79_ray2, Fs.C79_bounds3_partial, Fs.C79_equilibrium3, Fs.C79_superposition3, Fs.C79_monotone3, Fs.C79_dense3, Fs.C79_ray3, C80_rates2, C80_rates3, C80_threads2, C80_preaverage, C80_photons, C80_fixed_point, C80_operator_partial, C80_detailed_balance, C80_black_body, C80_nonneg, C80_wphi2, C80_wphi3, C80_uniform, AtmosFile.C81_dense2, AtmosFile.C81_dense3, AtmosFile.C81_sparse2, AtmosFile.C81_sparse3, AtmosFile.C81_detect, AtmosFile.C81_reject_dense2, AtmosFile.C81_reject_dense3, AtmosFile.C81_reject_sparse2, AtmosFile.C81_reject_sparse3, AtmosFile.C81_same2_partial, AtmosFile.C81_moving_refuted, Given.C82_J2, Given.C82_unique2, Given.C82_deterministic2, Given.C82_bounds2, Given.C82_dark2, Given.C82_wavelength2, Given.C82_superposition2, Given.C82_monotone2, Given.C82_rejects2, PopsField.C83_lte, PopsField.C83_total, PopsField.C83_saha_boltzmann_partial, PopsField.C83_nh0_model, PopsField.C83_nh0_lte, PopsField.C83_nh0_after_lte, VelInterp.C84_sample, VelInterp.C84_sample_bounded, VelInterp.C84_sample_refuted, VelInterp.C84_error, VelInterp.C84_range_partial, VelInterp.C84_width, VelInterp.C84_ray_partial, VelInterp.C84_mip, VelInterp.C84_range_refuted, LineSweep.C85_lines, LineSweep.C85_storage, LineSweep.C85_lookup, LineSweep.C85_pieces, LineSweep.C85_extend, LineSweep.C85_grid_pos, LineSweep.C85_interp_partial, LineSweep.C85_on_line, LineSweep.C85_negative_refuted, LineSweep.C85_edge_refuted, LineSweep.C85_steps, LineSweep.C85_throws, LteRun.C86_lte2_partial, LteRun.C86_unique2, LteRun.C86_deterministic2, LteRun.C86_thermal2, LteRun.C86_rejects2, LteRun.C86_slots2, RayRun.C87_run_partial, RayRun.C87_full, RayRun.C87_deterministic, RayRun.C87_exact, RayRun.C87_bounds, RayRun.C87_rejects, RayRun.C87_refuted_levels, Given3.C88_J3_partial, Given3.C88_unique3, Given3.C88_deterministic3, Given3.C88_bounds3, Given3.C88_dark3, Given3.C88_superposition3, Given3.C88_monotone3, Given3.C88_rejects3, Nlte.C89_run_partial, Nlte.C89_ends_partial, Nlte.C89_deterministic_partial, Nlte.C89_positive, Nlte.C89_converged, Nlte.C89_fixed_point, Nlte.C90_solvable, Nlte.C90_light, Nlte.C90_J, Nlte.C90_first_partial, Nlte.C90_lambda, Lte3.C91_lte3_partial, Lte3.C91_unique3, Lte3.C91_deterministic3, Lte3.C91_thermal3, Lte3.C91_rejects3, Lte3.C91_slots3_refuted, RayRun3.C92_run_partial, RayRun3.C92_full, RayRun3.C92_deterministic, RayRun3.C92_exact, RayRun3.C92_bounds, RayRun3.C92_rejects, RayRun3.C92_refuted_levels, RayRun3.C92_refuted_dense, RayRun3.C92_refuted_corner, Nlte3.C93_run_partial, Nlte3.C93_ends_partial, Nlte3.C93_deterministic_partial, Nlte3.C93_positive, Nlte3.C93_converged, Nlte3.C93_fixed_point, Nlte3.C94_solvable, Nlte3.C94_light, Nlte3.C94_J, Nlte3.C94_first_partial, Nlte3.C94_lambda, Lookup.C95_init2, Lookup.C95_init3, Lookup.C95_dense2, Lookup.C95_dense3, Lookup.C95_state2, Lookup.C95_state3, Lookup.C95_formal3, Lookup.C95_formal2_partial, Lookup.C95_overflow2_refuted, Lookup.C95_overflow3_refuted, Merges.C96_between, Merges.C96_top, Merges.C96_inner_partial, Merges.C96_alo, Merges.C96_alo_refuted, Merges.C96_joined, Merges.C96_centre_refuted, Merges.C96_exact, Merges.C96_cone, LongChar.C97_sum, LongChar.C97_zeroed_partial, LongChar.C97_bounds_partial, LongChar.C97_stale_refuted, LongChar.C97_unmarked_refuted, LongChar.C97_marked, LcQuad.C98_nodes, LcQuad.C98_weights, LcQuad.C98_cubic, LcQuad.C98_sphere, LcQuad.C98_exact, LcQuad.C98_mirror, LcQuad.C98_distinct, LcQuad.C98_between, LcQuad.C98_J_partial, Merges3.C99_value, Merges3.C99_between, Merges3.C99_top, Merges3.C99_joined, Merges3.C99_length
* **Quot.sound, propext** (34): C02_alias, C09_reject_odd, C10_two_loops_overflow, C11_gpu_launch_long, C14_children_in_pass3, C17_output3_refuted, C17_buffers3_partial, C22_refuted, C26_atomic, C26_cells, C29_fires, C29_iterates, C31_refuted_short, C33_ranges, C33_sigma, C33_hydrogen, C37_upper_bound, C37_refuted_empty, C40_refuted_nan, C41_duplicates_accepted, C43_refuted, C44_from_agreement, C44_fresh_partial, C44_same_decision, C45_restores, C45_resume_partial, C46_idle_partial, C48_refuted_detailed, C48_only, C51_net, C51_independent_partial, C69_names_unique, Lookup.C95_sparse2, Lookup.C95_sparse3
* **propext** (6): C08_reject, C10_num_iter, C13_shapes_agree, C17_overrun3_refuted, C46_complete, C48_refuted
* **no axioms** (3): C07_level_needs_discipline, C42_overflow3_refuted, Fs.C74_boundary_lost3_refuted
<!-- axioms:end -->

## What is modelled
| source file | modelled | not modelled |
|---|---|---|
| MortonCodes.hpp | all functions | |
| BlockMap.hpp/.cpp | dense, sparse and file set-up, lookup, index generators, mip-level index generator, packed level storage, mip offsets | KView allocation |
| LoopUtils.hpp | FlatLoop indexing, work division, overflow | Kokkos policies |
| RcUtilsModes(3d).hpp, RcConstants.hpp, Types.hpp (probes) | probe addresses, ray sets, intervals, bilinear/trilinear corners and weights, cascade sizes | |
| RadianceCascades.hpp, StaticFormalSolution*.cpp, DynamicFormalSolution*.cpp | merging algebra, direction partition, ping-pong, rate accumulation, base data, the long-characteristics mode in 3D, the kernels and drivers of a formal solution on their buffers, the four 2D ray configurations, line sweeps | kernel launch parameters, dead 3D trilinear fix |
| ProbesToCompute.cpp | all: construction, host and device access, 2D and 3D | |
| WavelengthParallelisation.hpp | the distributor for all schedules | MPI transport |
| RayMarching.hpp | clipping, grid traversal, the formal-solution step, line data of a step | rounding |
| EmisOpac.hpp, CoreAndVoigtEmisOpac.*, ProfileNormalisation.cpp | all | |
| Voigt.hpp | the Humlicek approximation, table set-up and look-up; elsewhere the Voigt function is an arbitrary function | |
| PromweaverBoundary.hpp/.cpp, ZeroBoundary | geometry, table look-up, resampling in wavelength | reading the file |
| MergeToJ.hpp, Config.hpp (quadrature tables), Types.hpp (DeviceProbesToCompute) | all | |
| dexrt_ray.cpp, dexrt_ray_3d.cpp | line of sight, ray sets, ray tracing, depth outputs, boundary, view lists | YAML parsing, NetCDF |
| Populations.*, GammaMatrix.hpp, Collisions.*, LteHPops.hpp, InitialPops.cpp, ChargeConservation.cpp, PressureConservation.hpp, NgAcceleration.* | statistical equilibrium assembly and update, LTE, collisional rates, Newton system, pressure, Ng | batched LU (its contract, an exact solution, is a hypothesis) |
| Mipmaps*.cpp, MiscSparse.cpp | averaging, level selection, rehydration | |
| Atomic data (Types.hpp, Utils.hpp, CrtafParser.hpp) | grid, weights, active sets, concatenation, conversion of the decoded YAML tree | YAML text to tree |
| DexrtConfig.hpp | conversion of the decoded configuration tree | YAML text to tree |
| main.cpp, main_3d.cpp | start-up, iteration loop, snapshots, ranks, allocation and output of J | command line, NetCDF library |
| dexrt_py, plotting, tests | | not modelled |

Floating point is exact arithmetic throughout (with NaN as a separate value where the control flow depends on it).

## Disagreements between code and property that the model exposed
Each is a theorem (named `..._refuted...` or given in the note of the claim) with a concrete witness.
<!-- dis:begin -->
* **C06** (C06_refuted2, C06_refuted3): False of the code as stated: a fresh generator reports data in tile (-1,-1) (C06_refuted*). Proved for all other cells and for every cell after the first hit on an active tile.
* **C16** (C16_last3_refuted): 2D proved; in 3D the last cascade ignores its own configured maximum (refuted with witness); with the default constants the last 2D interval is reversed when max_cascade >= 8
* **C17** (C17_overrun3_refuted, C17_output3_refuted): 2D proved; 3D indices use the 2D ping-pong flag so with the default 3D flags buffers do not match (refuted with witness); proved when the flags agree
* **C20** (C20_refuted): FALSE in general: C20_refuted exhibits a 32x32 grid with one active tile where an upper probe with non-zero weight is not in the list (2D marking clamps at corner 0). Proved closed while n+2<=log2(block) , away from the first rows/columns and for fully active grids.
* **C22** (C22_refuted): FALSE in the first pass of a multi-rank run: C22_refuted (request served before rank 0 resets the counter). Proved for all interleavings: every later pass, single-rank runs, static mode, no-MPI mode, given-emissivity loop; never misses a wavelength; always terminates.
* **C23** (C23_refuted_without_tau): associative with stored optical depths; FALSE with the default STORE_TAU_CASCADES=false (C23_refuted_without_tau), where only the far-side-first order used by the cascades is right: C23_path proves that order exact for every cut of a ray
* **C27** (C27_refuted_stage): proved when level 0 is of the lowest ionisation stage and no population is at the lower clamp (totals bounded with clamp); FALSE for levels of lower stage than level 0
* **C28** (C28_refuted_charge_exchange): proved for all kinds except charge exchange, which is one-sided: FALSE for those
* **C29** (C29_refuted_identical, C29_refuted_few_cells, C29_refuted_conservation, C29_refuted_positive): firing rule and unit, least-squares-optimal weights proved; "leaves agreeing iterates alone" is FALSE: a level whose last four iterates agree becomes NaN (C29_refuted_identical), any grid of fewer than 3 cells too; totals over levels and positivity are not preserved (refuted with witnesses). C29_converged_partial: unchanged when the last two agree and the level is non-degenerate
* **C30** (C30_refuted_clamp): proved when the density is not clamped; FALSE when it is (exactly when P/kT < ne - protons): C30_refuted_clamp
* **C31** (C31_refuted, C31_refuted_short): total of the weights and exact per-range sum proved; FALSE that a transition inside a larger grid integrates to its own width (C31_refuted); fewer than two wavelengths read out of bounds
* **C32** (C32_refuted): proved for up to 65536 transitions; FALSE beyond (u16 narrowing)
* **C34** (C34_emis3_refuted, C34_emis3_const_refuted): Proved in exact arithmetic for every map, field, level and schedule for all 2D arrays and for the 3D velocities and line data. Refuted for 3D emissivity and opacity: the sum of 8 sub-cells is multiplied by 0.25 (Mipmaps3d.cpp:340-341), so level l holds 2^l times the mean. Missing: floating-point rounding; the direction-interpolated (VelocityInterp) arrays.
* **C35** (C35_too_deep_refuted, C35_uniform3_refuted): Proved for every outcome of the tests and every order, when the mip limit does not exceed log2(block size). Nothing checks that limit: an accepted deeper limit divides by zero (refuted with witness). The 3D base-array test fails uniform thick blocks because it normalises 8 sub-cells by 0.25. Test arithmetic is exact-real.
* **C36** (C36_refuted3): Full for 2D (device, host, single field) and for the 3D host and single-field variants, for every schedule and every map C03/C04/C41 can build. The 3D device multi-page variant is refuted for every non-empty grid: its copy loop tests z instead of y (MiscSparse.cpp:199) and leaves the arrays.
* **C37** (C37_refuted_nan, C37_refuted_empty): proved for every strictly increasing table and every real sample; FALSE for a NaN sample (C37_refuted_nan: reads one past the end of the table) and for an empty table
* **C38** (C38_rim_refuted, C38_negative_zero_refuted): Proved in exact arithmetic with IEEE infinities and NaN for every ray and box: clip_ray_to_box returns exactly the intersection (failure: at most one common point); RaySegment::clip returns exactly the intersection with the grid shrunk by the 1e-4 rim when no direction component is a negative zero. Refuted in full: the rim is thrown away, and a negative-zero component makes a ray on the inner boundary fail. Rounding is not modelled.
* **C39** (C39_gap_refuted, C39_walk_in_refuted, C39_corner_refuted): Exact arithmetic, 2D and 3D, every ray, level pattern and number of steps: non-negative steps, termination, contiguity and coverage up to the 1e-3 / 0.011 that the code passes over at level changes, exact coverage at a uniform level, each step inside its cell away from corners. Refuted in full: pieces of the ray at level changes are in no step; a ray starting in an empty block within 1e-6 of a block with data is marched through wrong cells (11 cells away in the witness) and backwards; a sliver at each corner is put in a cell it only touches. Rounding is not modelled.
* **C40** (C40_refuted_nan): loop bound, no exit on extrapolated state and early-stop condition proved for every physics and oracle; "change within tolerance" is FALSE when populations become NaN (NaN changes are dropped by the reduction), C40_refuted_nan
* **C42** (C42_overflow3_refuted): holds whenever the 32-bit ray index does not overflow; refuted at cascade 6 with the default 3D constants
* **C43** (C43_refuted): exact when the final squaring also fits; the last unused squaring overflows (UB) for some representable powers
* **C44** (C44_refuted, C44_refuted_simple_pressure): FALSE for the first two iterations of a fresh charge-conserving run (nothing is broadcast after the LTE start-up) and with CONSERVE_PRESSURE_NR=false; proved otherwise; loop decisions always agree
* **C45** (C45_refuted_ng): proved without Ng acceleration; FALSE with it (history and accelerated flag are not saved): C45_refuted_ng
* **C46** (C46_refuted): FALSE for crashes during save_snapshot (file is replaced in place): C46_refuted; proved for all other crash points
* **C47** (C47_refuted_rescale, C47_refuted_rescale_witness, C47_refuted_clamp): proved for unclamped steps at constant density; FALSE with pressure conservation (hydrogen populations are rescaled a second time, C47_refuted_rescale) and when the step is clamped (negative populations, schedule dependent: C47_refuted_clamp)
* **C48** (C48_refuted, C48_refuted_detailed): proved when no non-LTE atom follows a detailed one; FALSE otherwise, and detailed atoms are always updated
* **C49** (C49_refuted_continuum): proved except sampling: lines are always sampled, a continuum under a coarser line can be left without any grid point (C49_refuted_continuum)
* **C51** (see note): exact up to the constant 1e-20 added to the opacity, whose effect is given exactly by C51_net
* **C52** (C52_refuted_3d): 2D proved in full. 3D: correct when the lines fit; refuted otherwise: the write past the array precedes the check, which never throws.
* **C54** (C54_edge_refuted): Everything except the last clause proved; refuted: at an arbitrary wavelength a continuum keeps its last cross-section up to the next grid point (or for ever at the end of the grid).
* **C56** (C56_continua_refuted): Lines proved. Continua refuted: the rate is 2 exp(hc/lambda k T) times the one of the formal solution.
* **C57** (C57_refuted): Proved when a continuum is active at the first wavelength of the batch or every wavelength refreshes; refuted otherwise: the 2D fill refreshes at the first wavelength only, and not even then if no continuum is active, so uninitialised memory is used.
* **C59** (C59_single_refuted): Everything proved for at least two wavelengths in file and run. Refuted for a run with one wavelength: out-of-bounds read.
* **C61** (C61_refuted): Proved for arguments within 2^31 steps of the table; refuted beyond: conversion to int overflows before the clamp. The table is not used in the default build.
* **C63** (C63_refuted2, C63_refuted3): Refuted: in 3D every dense solution on a fully active grid (the default) is taken for a sparse one and written in tile order; in 2D the same happens for non-LTE runs with sparse_calculation and final_dense_fs. Proved in all other 2D cases and, in 3D, for sparse J on the host and for grids with a hole.
* **C65** (C65_refuted_vy, C65_refuted_norm): Refuted: for every view out of the x-z plane the y velocity enters with the sign opposite to the reported direction; views with norm > 1 are divided by the squared norm, which scales the Doppler shift; in 3D the length of image_corner is not checked and a short list is read out of bounds. Proved: direction and Doppler for 2D views with norm <= 1 up to the sign of y, and exactly for views in the plane; 3D direction and pixel geometry for every non-zero view.
* **C66** (C66_refuted_square, C66_refuted_face_on, C66_refuted_fixed): Refuted: rays end after max(nx, nz) voxels, counted from an image plane at least one voxel outside the rotated box; on square grids every view loses part of the model, face on the bottom row is cut; without rotate_aabb inclined rays miss part of the model. Proved: the image plane covers the projection of every point of the model within half a cell; exactly which part is cut; rays are complete when max(nx, nz) suffices, and in 3D when the path fits in 8192 voxels.
* **C68** (C68_refuted_inclined): Refuted in 2D for views out of the x-z plane: the direction handed to the boundary condition is the one projected into the plane, so the limb darkening (and whether the Sun is hit at all) is wrong. Proved in 3D for all views and in 2D for views in the plane.
* **C69** (C69_refuted_natural, C69_refuted_one_point, C69_refuted_empty, C69_refuted_inverted, C69_refuted_decreasing, C69_refuted_coll): Proved: exactly which files are rejected, and that accepted ones are read as written. Refuted that what is accepted can be used: lines without natural broadening leave an indeterminate width, one-point linear grids give NaN, empty grids and decreasing tables and short collision tables lead to out-of-bounds reads, inverted transitions are accepted.
* **C70** (Config.C70_refuted): Proved: every setting of an accepted file is as written or the default; every valid file is accepted; unknown words, missing atoms or paths and cascades beyond the last are rejected. Refuted that all unusable files are rejected: max_cascade = -1 is accepted with no mip levels, an empty mip_levels list reads index -1.
* **C71** (Config.C71_refuted_no_section, Config.C71_refuted_given3, Config.C71_refuted_cascade): Proved for every file with an output section and non-negative cascade numbers (3D: with atoms). Refuted: given source functions without an output section try to write LTE populations of absent atoms; the 3D program with a given source function cannot write J (host copy never allocated, grid size never set); negative cascade numbers are accepted and index outside; an empty section differs from none.
* **C72** (Startup.C72_refuted): Reading is proved for all maps and orders; starting from the file is proved without charge conservation. Refuted with charge conservation: the LTE iteration that follows the reading solves for all populations from scratch, so the run starts as if there was no file.
* **C73** (Startup.C73_refuted): Proved for 2D, and for 3D unless restarting from a snapshot of iteration 200 or later, where nothing is solved (refuted).
* **C74** (Fs.C74_boundary_lost_refuted, Fs.C74_boundary_lost3_refuted): Proved with at least one cascade above the first, for the default ray configuration; the hypotheses on probe lists and buffers are proved for dense runs and sparse 3D runs, in sparse 2D only while the cascades are finer than a tile (C20). Refuted for max_cascade = 0: the boundary condition never reaches J.
* **C76** (Dir.C76_oneside_refuted, Dir.C76_isotropic3_refuted): Refuted in part: in 2D only one sign of the direction cosine along the invariant axis is sampled, so a flow along it has a non-zero mean Doppler shift (C76_oneside_refuted); in 3D the second moments are diagonal but not isotropic (8/27 instead of 1/3 in the first cascade).
* **C77** (Dir.C77_vertical_refuted): Proved for 3D and for 2D whenever the number of directions is not 2 modulo 4; with PROBE0_NUM_RAYS = 2 or 6 some segment length is 0/0 (C77_vertical_refuted). Cover needs the last interval in order (C16).
* **C78** (C78_inside_refuted, C78_alo_empty_refuted): Exact arithmetic, 2D and 3D. Exact solution of the medium of the cells when all cells are at one level, away from edges and corners (C78_exact) and, for uniform media, for all rays up to 3e-6 of path (C78_uniform); with several levels the error is bounded by the length passed over, which is bounded (C78_error_partial, C78_passed_over). What is computed is characterised for every pattern (C78_transfer). Opacity is used with its offset 1e-15. Refuted in part: with LAST_CASCADE_TO_INFTY a segment of the last cascade that starts inside the grid (grids beyond 2e4 cells) starts from the boundary intensity; the operator element of a ray that ends in an empty region is that of the last cell with data, not 0. The gathered emissivity and opacity are an arbitrary function of level and cell.
* **C79** (see note): Proved for the composition of the models of C12-C17, C24, C38, C39, C74, C76, C77, C78 in real arithmetic; the default merge (not pre-averaged), num_cascades above 0, HEALPix directions in 3D. Hypothesis Marches2/3 (the march of every ray ends) is proved for grids with data everywhere (C79_dense2/3); with empty regions it is C39/C78. Missing: floating point; J itself (C74, C75 give J from the intensities over the rationals); the emissivity and opacity of a cell are arbitrary functions of wavelength, direction, level and cell. Downgoing rays in a medium of constant S carry less than S (no boundary from above): C75_equilibrium with S > 0 is therefore about a boundary that lights all rays.
* **C80** (see note): Real arithmetic. The full statement "independently of the approximate operator" fails in the program by the constant 1e-20 added to the opacity: C80_photons gives the exact effect (factor 1 - 1e-20 psi on the emission), C80_operator_partial proves independence without it. Preconditioned (hypothesis of C80_nonneg) is about the approximate operator the march gives (C78). The 3D kernel adds atomically, so C26_atomic applies to any distribution over threads. Detailed balance of lines is stated with the line source function: the Planck function at the line centre, not at each wavelength (C54).
* **C81** (AtmosFile.C81_moving_refuted): The statement "loads as the same model" is proved for the map and the values (2D) and refuted for the moving flag (C81_moving_refuted): the dense load also looks at the cells that are thrown away. The flag is not read again by the solver. The 3D form of the re-save statement is not proved.
* **C83** (see note): Saha and Boltzmann only where no population is at the smallest normal number and the first level is in the lowest stage (C27_refuted_stage shows that the second condition is needed). That the first atom is hydrogen when there is a model of it is C33_hydrogen. Exact real arithmetic.
* **C84** (VelInterp.C84_sample_refuted, VelInterp.C84_range_refuted): Disagreement: the range does not cover all rays when the velocity has a component along y (C84_range_refuted: default quadrature, cell velocity (-3,-1,-1), cascade 3: 1.367 against an upper end of 1.350, after the 2 percent of safety, so the ray gets the value of the last bin). Proved for velocities in the plane (vy = 0, any inclinations between 0 and 1). Also: the bin number is converted to int before it is clamped, so a velocity more than 2^31 bins away is undefined behaviour. Exact real arithmetic; emis_opac itself is C53/C54.
* **C85** (LineSweep.C85_negative_refuted, LineSweep.C85_edge_refuted): Disagreements: (1) with the default PROBE0_LENGTH 1.5 and LINE_SWEEP_START_CASCADE 2, setting up line sweeping always throws (C85_throws; whole lengths work, C85_steps); (2) a probe before the first line gets weights outside [0, 1], because its position is truncated towards zero instead of rounded down: negative radiance and optical depth from non-negative samples (C85_negative_refuted: grid 64 x 64, direction 47 of 64, probe (0, 15) of cascade 2); bounds proved for the other probes (C85_interp_partial); (3) a probe whose interval lies outside the grid still gets the first sample, which holds medium nearer than its interval (C85_edge_refuted). Exact real arithmetic, directions without zero component, grids up to 2^28 wide and at least half a step and half a voxel; the march of one stretch is a parameter that composes (C78 for the march); merging with the upper cascade is C62/C74. The compiled-out do_log2_extensions is not modelled.
* **C86** (see note): Composition of the models of C81, C83, C27, C50, C52-C54, C82. Partial: 2D, one rank, dense files without temperature threshold, CoreAndVoigt line scheme (the default), mip_levels all 0 (the default) and max_cascade > 0 (C74 refutes 0), exact real arithmetic; data in which a batch has continua but none at its first wavelength is excluded (C57: the LTE scratch is then read uninitialised); the wavelength distributor (C22) and the output file (C63) are separate.
* **C87** (RayRun.C87_refuted_levels): Partial: an output with fewer levels than the atoms is not rejected but read out of bounds (C87_refuted_levels). With a temperature threshold the traversal has the gaps of C39, so C87_run_partial asks that no ray starts in an inactive cell at a tile edge (GoodStarts); without threshold (C87_full) nothing is asked. Geometry of the rays is that of C65, C66, C68 (with their refutations), depth resolved outputs C67, tables of boundary light C59. Exact real arithmetic; 2D only. C87_exact is for rays that do not meet a grid corner or start on a face (C38).
* **C88** (see note): Partial: exact arithmetic; mip_levels all 0 (default); HEALPix directions (default build), FORCE_LC_QUADRATURE off (default). The result cannot be written to the output file (C71), so the claim is about J when save_results is called.
* **C89** (see note): Partial: exact arithmetic; one rank; dense file with threshold 0, mip levels all 0, all atoms Active; no charge or pressure conservation, Ng acceleration, restart or final dense pass; a zero pivot ends the model. Determinism over kernel orders, batch size, memory and place of J is proved for runs whose rates can be balanced (shown for Lambda iterations in C90).
* **C90** (see note): Partial: what C89 leaves out is left out here too; iterations with approximate operator can be shown to fail only by a zero pivot, positivity there is C80_nonneg under its hypothesis on the operator.
* **C91** (Lte3.C91_slots3_refuted): Refuted in one clause: too many overlapping lines are not rejected in 3D; every such run overruns the slot array (C91_slots3_refuted). Otherwise partial: exact arithmetic; one rank; dense file with threshold 0, mip levels all 0, all probes computed, at least one cascade above the first; no restart, charge conservation or file of initial populations (C72, C73).
* **C92** (RayRun3.C92_refuted_levels, RayRun3.C92_refuted_dense, RayRun3.C92_refuted_corner): Refuted in three clauses: output in the default dense form always stops the tool with an error (C92_refuted_dense); an output with fewer levels than the atoms (C92_refuted_levels) and fewer image corners than views (C92_refuted_corner) are not rejected but read out of bounds. Otherwise partial: exact arithmetic; dense atmosphere file; directions not zero and without negative zeros (C38); with a threshold, no ray enters the grid in an empty tile that it leaves within 1e-6 (C39; C92_full needs no such hypothesis with threshold 0); rays are 8192 voxels long (C66).
* **C93** (see note): Partial: exact arithmetic; one rank; dense file with threshold 0, mip levels all 0, all atoms Active; no charge or pressure conservation, Ng acceleration, restart or final dense pass; a zero pivot ends the model. That overlapping lines fit the slots is a hypothesis because the 3D code does not check it (C91_slots3_refuted). Determinism over kernel orders, memory, slots and place of J is proved for runs whose rates can be balanced (shown for Lambda iterations in C94).
* **C94** (see note): Partial: what C93 leaves out is left out here too; iterations with approximate operator can be shown to fail only by a zero pivot, positivity there is C80_nonneg under its hypothesis on the operator.
* **C95** (Lookup.C95_overflow2_refuted, Lookup.C95_overflow3_refuted): Partial: dense runs are refuted beyond 2^31-1 probes in 2D (the host counts them in 64 bits, the device in 32) and beyond 2^31-1 probes below the last plane in 3D; the last clause holds in sparse 2D runs only while cascades are finer than a tile or with data everywhere (C20_refuted).
* **C96** (Merges.C96_alo_refuted, Merges.C96_centre_refuted): Partial: the upper bound of the inner reprojection is exceeded by a factor of at most 1+exp(-10000) because optical depths are cut off at 10000; the operator clause is refuted for the bilinear fix, which stores zero below the last cascade; the ray the bilinear fix takes as the centre of the fan is half an upper step off it, always on the same side. Real arithmetic; the direction cosine handed to the modified march (that of the original ray) and the stored optical depth are not modelled.
* **C97** (LongChar.C97_stale_refuted, LongChar.C97_unmarked_refuted): Partial: true only if the buffer of cascade 0 holds zeros beforehand - only the first direction of each probe is written but all are merged (11 of 12 entries in the default build), and the buffers are not initialised (refuted with a witness); and the mode returns before the block lookup is filled, so with zeroed memory every march gives nothing whatever the file holds (proved; with a filled lookup each march is the transfer along the path that ends at the probe, C97_marked). Real arithmetic; the weights and directions of the table are arbitrary; the buffer is followed over the directions of one wavelength.
* **C98** (see note): Partial: the unit lengths, weights and second moments hold within 1e-8, 2e-8 and 3e-8 (the tables have eight digits; the weights of the set of 24 sum to 1+8e-9), the symmetric parts exactly; the clause about J needs the zeroed buffer of C97. Literals are taken as exact rationals.
* **C99** (see note): Partial: HEALPix directions only, the intensity only (not optical depth nor approximate operator), 32-bit products assumed to fit. A joined ray of length zero, possible only when two probes are as far apart as the interval is long (C99_length), divides by zero in the code and has direction zero in the model.
<!-- dis:end -->
