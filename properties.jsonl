{"id": "C01", "title": "2D tile codes are lossless", "statement": "Encoding a 2D tile coordinate with both components in [0,65535] as a Morton code and decoding it gives back the same coordinate; every 32-bit code decodes to such a coordinate and re-encodes to itself. Hence distinct tiles inside the limit never share a code; outside the limit they do.", "quantifier": "every coordinate pair below 2^16, every 32-bit code", "why_tests_cant": "2^32 inputs, and the claim is a bijection between two 2^32-element sets", "anchors": ["source/MortonCodes.hpp:encode_morton<2>,decode_morton<2>,part_1_by_1,compact_1_by_1,MaxMortonValue"]}
{"id": "C02", "title": "3D tile codes are lossless", "statement": "Encoding a 3D tile coordinate with components in [0,1023] and decoding it gives back the same coordinate; codes below 2^30 decode and re-encode to themselves; distinct tiles inside the limit never share a code, outside the limit they can.", "quantifier": "every coordinate triple below 2^10, every 30-bit code", "why_tests_cant": "2^30 inputs and an injectivity claim over pairs", "anchors": ["source/MortonCodes.hpp:encode_morton<3>,decode_morton<3>,part_1_by_2,compact_1_by_2"]}
{"id": "C03", "title": "A dense grid map indexes every tile exactly once", "statement": "Initialising a dense block map for a grid whose sides are multiples of the block size gives every tile an index in [0, number of tiles), no two tiles the same index, and the i-th active tile code decodes to the tile whose index is i; sides that are not multiples are rejected.", "quantifier": "every grid size within the tile-code limit, 2D and 3D", "why_tests_cant": "sizes are unbounded for a test; the claim relates all pairs of tiles", "anchors": ["source/BlockMap.cpp:BlockMapInit<2>::setup_dense,BlockMapInit<3>::setup_dense"]}
{"id": "C04", "title": "A sparse grid map activates exactly the tiles that contain cold cells", "statement": "With a non-zero cutoff, a tile is active iff at least one of its cells has temperature <= cutoff; with cutoff 0 every tile is active. Active tiles are numbered 0..n-1 without gaps or repeats, inactive tiles report -1, and active_tiles[i] decodes to the tile numbered i.", "quantifier": "every grid size, every temperature field, every cutoff", "why_tests_cant": "arbitrary temperature fields (2^(number of tiles) activity patterns)", "anchors": ["source/BlockMap.cpp:BlockMapInit<2>::setup_sparse,BlockMapInit<3>::setup_sparse"]}
{"id": "C05", "title": "Cell storage is a bijection that all three address functions agree on", "statement": "For every active tile index and in-tile offset, loop_idx gives the storage slot and loop_coord the grid coordinate; looking the coordinate up with idx gives the same slot. Slots cover [0,num_active_cells) exactly once, coordinates cover exactly the cells of active tiles.", "quantifier": "every map, tile index, offset; 2D and 3D", "why_tests_cant": "an equality over all cells of all maps", "anchors": ["source/BlockMap.hpp:IndexGen::loop_idx,loop_coord,idx,compute_tile_inner_offset,compute_inner_offset"]}
{"id": "C06", "title": "The tile cache in the index generator never changes an answer", "statement": "Whatever sequence of idx and has_leaves queries was made before on the same generator, the next answer equals the answer of a fresh stateless lookup: has_leaves is true iff the coordinate is inside the grid and its tile active.", "quantifier": "every map and every finite history of queries (including coordinates outside the grid)", "why_tests_cant": "histories are unbounded", "anchors": ["source/BlockMap.hpp:IndexGen::idx,IndexGen::has_leaves"]}
{"id": "C07", "title": "The tile cache in the mip-level index generator never changes an address", "statement": "For every history of idx(mip,coord) and get_sample_level(coord) queries, idx(mip,coord) returns the stateless address; get_sample_level returns the stored level of the tile, or -1 outside the grid / in an empty tile, for histories in which idx is only asked for the level get_sample_level reported for that tile.", "quantifier": "every map, mip table and query history", "why_tests_cant": "histories are unbounded", "anchors": ["source/BlockMap.hpp:MultiLevelIndexGen::idx,get_sample_level"]}
{"id": "C08", "title": "Mip storage ranges never overlap and fit the allocated buffer", "statement": "For every number of active tiles and mip limit accepted by init, the addresses of all cells of all mip levels are pairwise distinct and cover exactly [0, buffer_len()).", "quantifier": "every tile count, block size, mip level, tile, offset", "why_tests_cant": "unbounded tile counts; pairwise distinctness", "anchors": ["source/BlockMap.hpp:MultiResBlockMap::init,buffer_len,MultiLevelIndexGen::compute_base_idx,loop_idx"]}
{"id": "C09", "title": "Packed mip entries read back what was packed", "statement": "After pack_entries, get(c) returns the value supplied for tile c (when it fits in the entry bits), in 2D with 2x2 hyper-blocking and in 3D; distinct tiles use distinct entries and every tile is inside the allocated words; odd tile counts are rejected in 2D.", "quantifier": "every even-sized tile grid, every entry array, every tile", "why_tests_cant": "unbounded sizes; non-interference between 21 entries sharing a word", "anchors": ["source/BlockMap.hpp:MultiLevelLookup::init,flat_tile_index,get,pack_entries"]}
{"id": "C10", "title": "A flattened parallel loop visits every index tuple exactly once", "statement": "For positive bounds whose products fit the integer type used, mapping the flat index 0..N-1 to loop indices hits each tuple of the rectangular iteration space exactly once.", "quantifier": "all bounds for 1 to 6 dimensions", "why_tests_cant": "unbounded bounds", "anchors": ["source/LoopUtils.hpp:FlatLoop,flat_loop unpack"]}
{"id": "C11", "title": "Work division covers every iteration exactly once", "statement": "balance_parallel_work_division returns a league/inner split for which the (team, inner) iterations together with the bounds check execute every index exactly once, and its search loop terminates.", "quantifier": "every iteration count and warp size", "why_tests_cant": "unbounded counts; termination", "anchors": ["source/LoopUtils.hpp:balance_parallel_work_division"]}
{"id": "C12", "title": "Probe storage addresses are injective and in bounds (2D)", "statement": "In every storage mode (all directions, direction-by-direction, pre-averaged), two different (probe, direction, inclination, wavelength) entries that are live in the same pass have different addresses inside the allocated cascade.", "quantifier": "all cascade sizes, all pairs of entries, all modes", "why_tests_cant": "unbounded sizes and pairs", "anchors": ["source/RcUtilsModes.hpp:probe_linear_index,cascade_rays_to_storage,cascade_storage_to_rays"]}
{"id": "C13", "title": "Probe storage addresses are injective and in bounds (3D)", "statement": "As C12 for 3D cascades (azimuth, polar, wavelength).", "quantifier": "all cascade sizes, all pairs of entries", "why_tests_cant": "unbounded sizes and pairs", "anchors": ["source/RcUtilsModes3d.hpp:probe_linear_index,ray subsets"]}
{"id": "C14", "title": "Direction-by-direction passes partition the directions", "statement": "Every direction of every cascade is computed in exactly one of the passes, and the pass that computes a ray also contains all the upper-cascade rays it merges with.", "quantifier": "every cascade, subset and direction", "why_tests_cant": "unbounded cascades/directions", "anchors": ["source/RcUtilsModes.hpp:nth_rays_subset,num_subset_tasks", "source/RcUtilsModes3d.hpp"]}
{"id": "C15", "title": "Merging reads every upper ray exactly once", "statement": "The upper-cascade rays assigned to the rays of the level below form a partition: every upper ray is a child of exactly one lower ray, and each ray averages exactly its children.", "quantifier": "all cascades and ray counts", "why_tests_cant": "unbounded", "anchors": ["source/RcUtilsModes.hpp:upper_ray_idx,num_rays_per_texel, upper_texels"]}
{"id": "C16", "title": "Ray intervals of successive cascades tile the line", "statement": "The end distance of cascade n's rays equals the start distance of cascade n+1's rays, cascade 0 starts at 0, and the last cascade reaches the configured maximum.", "quantifier": "every cascade count and level", "why_tests_cant": "unbounded levels", "anchors": ["source/RcUtilsModes.hpp:cascade_ray_interval, cascade_interval_length"]}
{"id": "C17", "title": "Cascade buffers are large enough and never aliased during a merge", "statement": "Every cascade fits in the buffer it is assigned, and while cascade n is computed its upper cascade n+1 is in a different buffer holding n+1's data, for both ping-pong and one-buffer-per-cascade modes.", "quantifier": "every number of cascades and size", "why_tests_cant": "unbounded", "anchors": ["source/CascadeState.cpp:CascadeState::init", "source/RcUtilsModes.hpp:cascade_indices"]}
{"id": "C18", "title": "Bilinear probe interpolation is a convex combination of existing probes", "statement": "For every probe position and cascade size, the four upper probes used exist, the weights are non-negative and sum to one, and in the interior linear functions are reproduced exactly.", "quantifier": "every probe and cascade size", "why_tests_cant": "unbounded sizes", "anchors": ["source/RcUtilsModes.hpp:bilinear_corner,bilinear_offset,bilinear_coord,bilinear_weights"]}
{"id": "C19", "title": "Trilinear probe interpolation is a convex combination of existing probes", "statement": "As C18 in 3D with eight probes.", "quantifier": "every probe and cascade size", "why_tests_cant": "unbounded sizes", "anchors": ["source/RcUtilsModes3d.hpp:trilinear_corner,trilinear_offset,trilinear_weights"]}
{"id": "C20", "title": "Sparse 2D cascades compute every probe a merge needs", "statement": "If a probe is in the active list of cascade n, every upper probe with non-zero merge weight is in the active list of cascade n+1.", "quantifier": "every sparse map, cascade and probe", "why_tests_cant": "unbounded activity patterns", "anchors": ["source/MiscSparse.cpp:compute_active_probe_lists"]}
{"id": "C21", "title": "Sparse 3D cascades compute every probe a merge needs", "statement": "As C20 for the 3D lists.", "quantifier": "every sparse map, cascade and probe", "why_tests_cant": "unbounded activity patterns", "anchors": ["source/MiscSparse.cpp:compute_active_probe_lists (3D)"]}
{"id": "C22", "title": "Every wavelength is solved exactly once per pass", "statement": "In each formal-solution pass the batches returned to all ranks cover [0, num wavelengths) exactly once, batches never exceed the batch size, and every rank is eventually told there is no more work, for every interleaving of ranks and the service thread.", "quantifier": "every rank count, batch size, wavelength count and interleaving", "why_tests_cant": "unbounded interleavings", "anchors": ["source/WavelengthParallelisation.hpp:WavelengthDistributor", "source/main.cpp"]}
{"id": "C23", "title": "Merging radiance intervals is associative with a transparent identity", "statement": "Combining near and far intervals (I,tau) is associative, the empty interval is the identity, and the merged intensity equals the formal solution along the concatenated path.", "quantifier": "all real intensities and optical depths", "why_tests_cant": "real-valued inputs", "anchors": ["source/RadianceCascades.hpp:merge_intervals", "source/RayMarching.hpp"]}
{"id": "C24", "title": "The ray march never over- or under-shoots its sources", "statement": "For non-negative opacity, emissivity and boundary intensity, the marched intensity is non-negative and lies between the smallest and largest of the boundary intensity and source functions crossed; accumulated optical depth equals the sum of chi*length.", "quantifier": "every finite sequence of steps", "why_tests_cant": "unbounded sequences of real inputs", "anchors": ["source/RayMarching.hpp:raymarch step"]}
{"id": "C25", "title": "Statistical equilibrium conserves the number of atoms", "statement": "The linear system assembled from any rate matrix has columns that balance, and any solution of the modified system has populations summing to the total abundance for that cell while satisfying all the original balance equations.", "quantifier": "every number of levels, rate matrix and eliminated row", "why_tests_cant": "real matrices of any size", "anchors": ["source/Populations.cpp:stat_eq"]}
{"id": "C26", "title": "Rate accumulation does not depend on thread or rank scheduling", "statement": "Accumulating contributions to the rate matrix in any order, split over any ranks then reduced, gives the same matrix in exact arithmetic.", "quantifier": "every multiset of contributions and permutation/partition", "why_tests_cant": "unbounded schedules", "anchors": ["source/GammaMatrix.hpp:add_to_gamma", "source/WavelengthParallelisation.hpp:reduce_Gamma"]}
{"id": "C27", "title": "LTE populations add up to the total", "statement": "For any energies, weights, temperature and electron density accepted, LTE populations are positive and sum to the total number density; ratios follow Saha-Boltzmann.", "quantifier": "every level structure", "why_tests_cant": "real inputs, unbounded level count", "anchors": ["source/Populations.hpp:lte_pops"]}
{"id": "C28", "title": "Collisions alone drive populations to LTE", "statement": "For every collisional rate type, upward and downward rates satisfy detailed balance at the LTE ratio, so LTE populations solve the collisional rate equations.", "quantifier": "every temperature, electron density, rate table", "why_tests_cant": "real inputs", "anchors": ["source/Collisions.hpp"]}
{"id": "C29", "title": "Ng acceleration leaves converged solutions alone and only fires when allowed", "statement": "When the stored iterates agree, acceleration returns the same populations; extrapolation weights sum to one per level; it fires only on every fifth recorded iterate and only if the changes are within the configured window.", "quantifier": "every history of accelerate calls", "why_tests_cant": "unbounded histories", "anchors": ["source/NgAcceleration.cpp:NgAccelerator::accelerate"]}
{"id": "C30", "title": "Pressure conservation restores the gas pressure", "statement": "After the update, (abundance*nh_tot+ne) k T equals the configured pressure at every cell and populations scale with nh_tot.", "quantifier": "every cell state", "why_tests_cant": "real inputs", "anchors": ["source/PressureConservation.hpp:simple_conserve_pressure"]}
{"id": "C31", "title": "Wavelength integration weights add up to the transition's range", "statement": "For any wavelength grid and transition the per-wavelength integration weights are non-negative for sorted grids and sum to the width of the transition's range.", "quantifier": "every sorted grid and range", "why_tests_cant": "unbounded grids", "anchors": ["source/Populations.hpp:wavelength_bin"]}
{"id": "C32", "title": "Each wavelength knows exactly its active transitions", "statement": "The active-line (continuum) slice for a wavelength contains line l iff the wavelength index is in the line's [red,blue) range, each exactly once; slices are contiguous and cover the whole array.", "quantifier": "every set of transitions and grid", "why_tests_cant": "unbounded", "anchors": ["source/Populations.hpp:to_atomic_data, active sets"]}
{"id": "C33", "title": "Concatenated atomic data keeps atoms disjoint", "statement": "Level, line, continuum and collision ranges of each atom are disjoint, contiguous and cover the concatenated arrays; each entry is the one of the model it came from.", "quantifier": "every list of model atoms", "why_tests_cant": "unbounded", "anchors": ["source/Populations.hpp:to_atomic_data, extract_atoms"]}
{"id": "C34", "title": "Mip averaging preserves the mean", "statement": "Each mip cell is the mean of the cells it covers, so total over any tile is preserved at all mip levels and a constant field is reproduced.", "quantifier": "every field and level", "why_tests_cant": "real inputs, unbounded levels", "anchors": ["source/Mipmaps.cpp"]}
{"id": "C35", "title": "A tile's stored mip level is justified and storable", "statement": "The level stored for an active tile never exceeds the limit, fits in the packed entry, is 0 only for inactive tiles, and level L is chosen only if every level up to L passed the variation tests.", "quantifier": "every tile and variation pattern", "why_tests_cant": "unbounded", "anchors": ["source/Mipmaps.cpp"]}
{"id": "C36", "title": "Sparse fields rehydrate to the original on active cells", "statement": "Sparsifying a dense field and rehydrating gives the original value on every cell of an active tile and the fill value elsewhere; rehydrating then sparsifying is the identity.", "quantifier": "every map and field, 2D and 3D, device and host variants", "why_tests_cant": "unbounded maps", "anchors": ["source/MiscSparse.cpp:sparsify_atmosphere,rehydrate_sparse_quantity"]}
{"id": "C37", "title": "Table interpolation is clamped, exact at nodes and never reads outside", "statement": "For any strictly increasing table of at least one point, interpolation returns the end values outside, the node value at nodes, lies between neighbours inside, and never indexes outside the table.", "quantifier": "every table and query", "why_tests_cant": "unbounded", "anchors": ["source/Utils.hpp:upper_bound, interp"]}
{"id": "C38", "title": "Ray clipping returns exactly the part of the ray in the grid", "statement": "If clip succeeds the segment lies in the box and is the full intersection; if it fails the segment misses the box.", "quantifier": "every ray and box", "why_tests_cant": "real inputs", "anchors": ["source/Types.hpp:RaySegment::clip", "source/RayMarching.hpp:clip_ray_to_box"]}
{"id": "C39", "title": "Grid traversal visits contiguous intervals that cover the ray", "statement": "Successive steps start where the last ended, have non-negative length, and together cover the clipped ray.", "quantifier": "every ray and mip pattern", "why_tests_cant": "unbounded steps", "anchors": ["source/BlockMap.hpp:MultiLevelDDA"]}
{"id": "C40", "title": "The non-LTE iteration always stops and never ends on an extrapolated state", "statement": "The main loop performs at most max_iter+1 iterations, stops early only if the change is within tolerance and the initial lambda iterations are done, and never exits directly after an accelerated iteration.", "quantifier": "every sequence of changes reported by the solver", "why_tests_cant": "unbounded histories", "anchors": ["source/main.cpp:main", "source/NgAcceleration.cpp"]}
{"id": "C41", "title": "A map read from a sparse atmosphere file numbers exactly the listed tiles", "statement": "If the file's tile list has distinct codes of tiles inside the grid and consistent sizes, the loaded map numbers exactly those tiles in list order, for every order in which the parallel writes happen; a list with repeated tiles is accepted silently and yields a broken map.", "quantifier": "every tile list, grid size and write schedule; 2D and 3D", "why_tests_cant": "unbounded tile lists and schedules of a parallel loop", "anchors": ["source/BlockMap.cpp:setup_block_map_sparse_atmos"]}
{"id": "C42", "title": "Merging reads every upper ray exactly once (3D)", "statement": "In 3D, the upper-cascade rays read when merging a ray of the level below are all inside the upper cascade, every upper ray is read for exactly one lower ray, for every cascade level the configuration accepts.", "quantifier": "all cascade levels, azimuthal and polar ray indices, branching factors", "why_tests_cant": "ray counts grow exponentially with cascade level; tests run small cascades", "anchors": ["source/DynamicFormalSolution3d.cpp: upper ray start", "source/StaticFormalSolution3d.cpp: upper ray start", "source/RcUtilsModes3d.hpp: upper_ray_idx"]}
{"id": "C43", "title": "Integer powers are exact", "statement": "The integer power helper used to size 3D cascades returns base^exp whenever that value is representable, without undefined behaviour.", "quantifier": "all bases and exponents with a representable power", "why_tests_cant": "the domain is unbounded in both arguments; overflow happens in an intermediate that is discarded", "anchors": ["source/RcUtilsModes3d.hpp: powi"]}
{"id": "C44", "title": "All ranks iterate on the same state", "statement": "In an MPI run, before every formal solution all ranks hold the same populations, electron density and total hydrogen density, and all ranks take the same decision whether to iterate again.", "quantifier": "every number of ranks, every configuration of charge/pressure conservation and initial populations, every iteration", "why_tests_cant": "depends on which of many update steps are broadcast, in every iteration of every configuration; tests run on one rank", "anchors": ["source/main.cpp: main (non-LTE loop)", "source/WavelengthParallelisation.hpp: update_pops, update_ne, update_nh_tot", "source/Populations.cpp: stat_eq", "source/ChargeConservation.cpp: nr_post_update", "source/PressureConservation.hpp: simple_conserve_pressure", "source/InitialPops.cpp: set_initial_pops_special"]}
{"id": "C45", "title": "Restarting from a snapshot resumes the run", "statement": "Restarting from any snapshot restores iteration number, populations and densities, and the restarted run performs the remaining iterations with the same results as the uninterrupted run.", "quantifier": "every configuration, every physics, every iteration at which a snapshot is taken", "why_tests_cant": "must hold for every crash point and every later iteration", "anchors": ["source/main.cpp: handle_restart, save_snapshot, main"]}
{"id": "C46", "title": "A crash never costs more than the work since the last snapshot", "statement": "Once a snapshot has been completed, whenever the process dies the snapshot file is complete and restores the state of an iteration at which a snapshot was due; the snapshot never overwrites the output file.", "quantifier": "every crash point, including during save_snapshot; every output path", "why_tests_cant": "crash points cannot be enumerated by tests", "anchors": ["source/main.cpp: save_snapshot, handle_restart"]}
{"id": "C47", "title": "Charge conservation leaves a neutral plasma with the right number of atoms", "statement": "After the Newton update of populations and electron density, in every cell the hydrogen populations are non-negative and add up to the hydrogen density, the electron density equals the charge of hydrogen, and with pressure conservation the gas pressure is the configured one; a cell already satisfying all equations is unchanged.", "quantifier": "every number of levels, rates, populations, electron density, pressure and thread schedule", "why_tests_cant": "Depends on cancellation between equations for arbitrary rate matrices, on a clamp that triggers only in rare states and on the order of threads; tests see a few atmospheres.", "anchors": ["source/ChargeConservation.cpp:nr_post_update_impl"]}
{"id": "C48", "title": "Each atom gets its own collisional rates, detailed atoms keep their populations", "statement": "After the collisional rates are computed, the rate matrix of every atom treated in non-LTE contains that atom's collisional rates, and atoms in detailed treatment keep their populations.", "quantifier": "every list of atoms and treatments", "why_tests_cant": "unbounded combinations of treatments", "anchors": ["source/Collisions.cpp:compute_collisions_to_gamma", "source/Populations.hpp:extract_atoms_with_gamma_and_mapping", "source/Populations.cpp:stat_eq_impl"]}
{"id": "C49", "title": "The global wavelength grid is well defined and samples every transition", "statement": "For any set of lines and continua with increasing wavelength lists, the assembled grid is strictly increasing, contains exactly the input wavelengths governed by the transition they come from (nearest line, continuum only where no line covers), does not depend on how equal wavelengths are sorted, and leaves no transition without a grid point.", "quantifier": "every set of transitions and every result of the unstable sort", "why_tests_cant": "unbounded sets of overlapping transitions, unspecified order of ties", "anchors": ["source/Populations.hpp:to_atomic_data"]}
{"id": "C50", "title": "LTE hydrogen split is consistent", "statement": "For any temperature, positive electron density and hydrogen density, the tabulated partition function is defined and between its table values, neutral and ionised hydrogen are non-negative, add up to all hydrogen and obey the Saha equation.", "quantifier": "every temperature and density", "why_tests_cant": "real inputs", "anchors": ["source/Populations.hpp:HPartFn"]}
{"id": "C51", "title": "Preconditioning does not change the solution", "statement": "For all populations, intensities and approximate operators, the net rate between the two levels of a transition put into the rate matrix equals the net radiative rate with the full intensity, so accelerated and plain lambda iteration have the same solution; the two code paths (with and without 4pi/hc) add the same amounts.", "quantifier": "every transition, population, intensity and approximate operator", "why_tests_cant": "real inputs", "anchors": ["source/GammaMatrix.hpp:add_to_gamma", "source/DynamicFormalSolution.cpp:dynamic_compute_gamma_atomic, dynamic_compute_gamma_nonatomic"]}
{"id": "C52", "title": "Slots for the active lines", "statement": "For every number of slots and every batch of wavelengths, filling the core-and-Voigt slots gives each line active anywhere in the batch exactly one slot, nothing else a slot, used slots first; if the lines do not fit the run is rejected with an error. No write is out of bounds.", "quantifier": "all slot counts, all batches and lists of active lines", "why_tests_cant": "The failing case needs more overlapping lines than slots, which no test atom has.", "anchors": ["source/CoreAndVoigtEmisOpac.cpp", "source/DynamicFormalSolution3d.cpp"]}
{"id": "C53", "title": "Precomputed line data give the same emissivity and opacity", "statement": "For every batch whose active lines fit into the slots, summing the precomputed line data in a cell adds to the base value exactly the emissivity and opacity of the lines active at that wavelength, so the total is what direct evaluation of all transitions gives.", "quantifier": "all atomic data, wavelengths, cells, velocities, populations and Voigt functions", "why_tests_cant": "Equality of two evaluation orders over all overlaps of lines.", "anchors": ["source/CoreAndVoigtEmisOpac.cpp", "source/EmisOpac.hpp"]}
{"id": "C54", "title": "Emissivity and opacity are the textbook sums", "statement": "For all well-formed atomic data the emissivity and opacity at a wavelength are the sums over the active lines and continua of the textbook expressions, each transition once in every mode; LTE populations give the Planck function; asked for an arbitrary wavelength, the result agrees with the grid and a transition does not contribute outside its range.", "quantifier": "all atomic data, wavelengths, populations, cells, modes, lists of active transitions", "why_tests_cant": "Real-valued identity over all inputs.", "anchors": ["source/EmisOpac.hpp emis_opac", "source/DynamicFormalSolution.cpp", "source/Populations.hpp"]}
{"id": "C55", "title": "Line profiles are normalised on the quadrature used", "statement": "For every line, cell, wavelength grid and set of directions, the profile times its normalisation factor integrates to one over exactly the quadrature the radiative rates use, so the summed spontaneous rate is A and in uniform intensity I the absorption and stimulated rates are B times I.", "quantifier": "all lines, cells, grids, ray sets, Voigt functions", "why_tests_cant": "Quadrature identity for arbitrary grids.", "anchors": ["source/ProfileNormalisation.cpp", "source/DynamicFormalSolution.cpp"]}
{"id": "C56", "title": "Populations without radiation use the same rates as the formal solution", "statement": "The rates set up for initial populations without radiation are, for every line and continuum, the ones the formal solution gives when the intensity is zero.", "quantifier": "all transitions, temperatures, densities, wavelengths", "why_tests_cant": "Comparison of two formulas over a continuum of states.", "anchors": ["source/InitialPops.cpp", "source/DynamicFormalSolution.cpp"]}
{"id": "C57", "title": "LTE populations used for a cell are those of the cell", "statement": "When the base level of emissivity and opacity is filled for a batch of wavelengths, continua at every wavelength of the batch use the LTE populations of that cell.", "quantifier": "all batches, cells, atomic data, contents of uninitialised memory", "why_tests_cant": "Depends on the contents of uninitialised memory.", "anchors": ["source/Mipmaps.cpp", "source/EmisOpac.hpp", "source/DynamicFormalSolution.cpp"]}
{"id": "C58", "title": "Boundary light comes from the Sun", "statement": "For every position above the surface and every direction, a ray that samples the boundary starts with the tabulated intensity at the angle at which its backward path left the solar sphere, and with zero if that path misses the Sun; the value does not depend on where along the path it is sampled; every table access is in bounds, clamped at the ends and linear between nodes.", "quantifier": "all positions, directions, boundary tables", "why_tests_cant": "Geometry over a continuum of rays.", "anchors": ["source/PromweaverBoundary.hpp", "source/RayMarching.hpp raymarch_2d"]}
{"id": "C59", "title": "Boundary table is put on the run grid conserving flux", "statement": "For all strictly increasing wavelength grids of file and run, flux-conserving resampling gives every bin its share of the flux of the tabulated profile, conserves the total over the covered range, never leaves the range of the tabulated values and never reads out of bounds; interpolation gives the piecewise linear curve. A run of any number of wavelengths is handled.", "quantifier": "all tables, all wavelength grids", "why_tests_cant": "Conservation for arbitrary overlap of two irregular grids.", "anchors": ["source/PromweaverBoundary.cpp load_bc"]}
{"id": "C60", "title": "Voigt profile", "statement": "For every damping parameter a >= 0 and every frequency offset v, the profile evaluated is the real part of Weideman's approximation (asymptotic form in the wings) in complex arithmetic, with no division by zero; it is even in v, never negative, and never above one by more than 5e-9.", "quantifier": "all a >= 0 and all v", "why_tests_cant": "Positivity of a rational function of two real variables on an unbounded region.", "anchors": ["source/Voigt.hpp"]}
{"id": "C61", "title": "Voigt table lookup", "statement": "For every table and every argument, the table lookup is in bounds and returns the bilinear interpolant at the position clamped to the table.", "quantifier": "all tables, all arguments", "why_tests_cant": "Arguments far outside the table are rare.", "anchors": ["source/Voigt.hpp VoigtProfile::operator()"]}
{"id": "C62", "title": "Mean intensity", "statement": "After the formal solution of every wavelength batch, in any batch order and with the directions accumulated in any order, the mean intensity stored for each computed cell is exactly the direction average of the intensities of cascade 0 at that cell (inclination weights in 2D, equal weights in 3D); each ray is counted exactly once whatever the direction splitting; no other entry is touched; keeping J on the device or copying it plane by plane to the host gives the same values.", "quantifier": "all grids, sparse or dense probe lists, direction modes, batch orders, iteration orders, intensities", "why_tests_cant": "Depends on the interleaving of atomic additions, on the split of directions and on grid size.", "anchors": ["source/MergeToJ.hpp merge_c0_to_J", "source/DynamicFormalSolution3d.cpp merge_c0_to_J_3d", "source/Types.hpp DeviceProbesToCompute", "source/main.cpp copy_J_plane_to_host"]}
{"id": "C63", "title": "J in the output file", "statement": "For every run and every output option, the J variable of the output file shows, at each cell solved by the last formal solution, the mean intensity of that cell, and zero elsewhere (or, in sparse form, the value of each cell with data at its sparse address).", "quantifier": "all grids, activity patterns, configurations, J fields", "why_tests_cant": "Depends on a coincidence of array sizes that small test grids with holes never meet.", "anchors": ["source/main.cpp save_results, allocate_J", "source/main_3d.cpp save_results, allocate_J", "source/MiscSparse.cpp rehydrate_sparse_quantity"]}
{"id": "C64", "title": "Inclination quadrature", "statement": "With 4, 8 or 16 inclinations the angular quadrature integrates every polynomial of degree up to 2n-2 in the cosine of the inclination to 1e-13, has positive weights that sum to 1, and so leaves isotropic radiation unchanged.", "quantifier": "all polynomials of that degree, all intensities", "why_tests_cant": "A test checks chosen functions.", "anchors": ["source/Config.hpp INCL_RAYS_GL", "source/UserConfig.hpp NUM_INCL"]}
{"id": "C65", "title": "Line of sight of synthetic observations", "statement": "For every configured view, dexrt_ray and dexrt_ray_3d trace along a unit line of sight, take the Doppler shift from the velocity towards the observer along the same line of sight, and report that line of sight in the output; every view list is either complete or rejected.", "quantifier": "all view directions, velocities, pixel grids, view lists", "why_tests_cant": "The sign of the y component matters only for inclined views with velocity along y; unnormalised views and short lists are not exercised.", "anchors": ["source/dexrt_ray.cpp compute_ray_set, save_results", "source/dexrt_ray_3d.cpp compute_ray_set, parse_extra_ray_config"]}
{"id": "C66", "title": "Rays cover the model", "statement": "For every grid and view, the set of rays of a synthetic observation covers the whole projected model with one ray per cell width, and every ray crosses the model completely.", "quantifier": "all grid sizes, views, ray indices", "why_tests_cant": "Needs geometry for all angles; the missing piece of a ray is at the far side of the model where tests see little.", "anchors": ["source/dexrt_ray.cpp compute_ray_set, compute_ray_intensity", "source/dexrt_ray_3d.cpp"]}
{"id": "C67", "title": "Intensity and depth outputs of synthetic observations", "statement": "For every sequence of cells a ray crosses, the emergent intensity and optical depth are the formal solution through these cells over the boundary intensity, lie between the extremes of source function and boundary, use the path length along the three-dimensional line of sight, and the depth-resolved outputs hold the values of each step, in bounds and for every order of execution.", "quantifier": "all sequences of cells, opacities, emissivities, boundary values, views, ray sets, schedules", "why_tests_cant": "An infinite family of real-valued sequences and schedules.", "anchors": ["source/dexrt_ray.cpp compute_ray_intensity", "source/dexrt_ray_3d.cpp compute_ray_intensity"]}
{"id": "C68", "title": "Sun behind the model in synthetic observations", "statement": "For every view and pixel above the Sun, the intensity behind the model is that of the point of the Sun the line of sight meets, at the angle at which it meets it, and zero if it misses.", "quantifier": "all views, pixels, tables", "why_tests_cant": "Depends on real geometry of a sphere for all positions and directions.", "anchors": ["source/dexrt_ray.cpp sample_bc", "source/dexrt_ray_3d.cpp", "source/PromweaverBoundary.hpp"]}
{"id": "C69", "title": "Model atoms are read as written or rejected", "statement": "For every model atom file, reading it either throws, or yields the levels of the file in order of energy and its lines, continua and collisional rates with the values of the file, between the levels named there, such that the atomic data can be built from it without undefined behaviour.", "quantifier": "all files: levels, names, transitions, broadening lists, wavelength grids, collision tables", "why_tests_cant": "The set of files is infinite; tests read a handful of well-formed atoms.", "anchors": ["source/CrtafParser.hpp parse_crtaf_model", "source/Types.hpp AtomicLine", "source/Populations.hpp to_atomic_data"]}
{"id": "C70", "title": "Configuration files are read as written or rejected", "statement": "For every configuration file, reading it either throws or gives settings that are those of the file, or the defaults for keys that are absent: the mode and the atoms with their treatments and starting populations in the order of the file, one mip level per cascade with the last one given repeated, and the iteration settings in the modes that use them. Files whose settings cannot be used are rejected.", "quantifier": "all configuration files: every combination of present and absent keys, words, atom lists, mip level lists and cascade numbers", "why_tests_cant": "The set of files is infinite and defaults interact with the mode; tests read a handful of example files.", "anchors": ["source/DexrtConfig.hpp parse_dexrt_config", "source/DexrtConfig.hpp parse_mip_config", "source/DexrtConfig.hpp parse_extra_lte", "source/DexrtConfig.hpp parse_extra_nonlte"]}
{"id": "C71", "title": "The output file has the results asked for", "statement": "For every configuration, the output file of the 2D and 3D programs has exactly the variables the user asked for (or the defaults) that apply to the mode of the run.", "quantifier": "all configurations and both programs", "why_tests_cant": "Output switches, modes and the presence of the section combine; runs of a few configurations cannot cover them.", "anchors": ["source/DexrtConfig.hpp parse_and_update_dexrt_output_config", "source/main.cpp save_results", "source/main_3d.cpp save_results", "source/main_3d.cpp allocate_J", "source/CascadeState.cpp CascadeState::init"]}
{"id": "C72", "title": "Runs start from the populations they are given", "statement": "For every populations file and grid map, each level of each active cell gets the value of the file for that cell, or the file is rejected; a run that is given initial populations enters its first iteration with them (atoms asked to start without radiation excepted), and a restarted run with those of its snapshot.", "quantifier": "all files, maps, kernel orders and settings", "why_tests_cant": "Every cell of every map and combination of settings matters; the effect of ignored initial populations is only slower or different convergence.", "anchors": ["source/main.cpp load_initial_pops", "source/main_3d.cpp load_initial_pops", "source/main.cpp main", "source/main_3d.cpp main", "source/InitialPops.cpp set_initial_pops_special"]}
{"id": "C73", "title": "LTE runs solve for the radiation exactly once", "statement": "For every configuration in LTE mode, the program performs exactly one formal solution over all wavelengths before writing its results.", "quantifier": "all configurations, both programs, with and without a snapshot", "why_tests_cant": "The 3D program reuses the non-LTE loop; its conditions involve settings and the snapshot.", "anchors": ["source/main.cpp main", "source/main_3d.cpp main"]}
{"id": "C74", "title": "A formal solution computes the cascade recursion, whatever the order and the old buffers", "statement": "For every grid, number of cascades, direction subset, iteration order of the kernels and previous contents of the buffers, a radiance-cascade formal solution accesses no array out of bounds and leaves, for every ray of the first cascade at every computed cell, the intensity obtained by marching the ray and adding what is transmitted of the cascade above (interpolated between the nearest probes, averaged over the directions it splits into, the last cascade seeing the boundary condition); it adds exactly the angular mean of these to J, and the diagonal operator is that of each ray or zero.", "quantifier": "all grids, cascades, passes, kernel schedules, buffer contents and ray marches, 2D and 3D", "why_tests_cant": "Results depend on buffer reuse between cascades and passes and on the order of thousands of parallel iterations.", "anchors": ["source/DynamicFormalSolution.cpp dynamic_formal_sol_rc", "source/StaticFormalSolution.cpp static_formal_sol_given_rc", "source/DynamicFormalSolution3d.cpp dynamic_formal_sol_rc_3d", "source/DynamicFormalSolution3d.cpp compute_cascade_i_3d", "source/RadianceCascades.hpp cascade_i_25d", "source/RadianceCascades.hpp march_and_merge_average_interval"]}
{"id": "C75", "title": "The radiation field stays within its sources, is in equilibrium with a uniform one, and is linear and monotone", "statement": "After a formal solution every intensity lies between the smallest and largest of the source functions crossed and the boundary intensities; if all are equal, every intensity is exactly that value; intensities are additive in emission and boundary for fixed absorption and never decrease when emission or boundary increase; what is added to J lies within the same bounds times the sum of the angular weights.", "quantifier": "all grids, cascades, passes, schedules and source and opacity distributions, 2D and 3D", "why_tests_cant": "Interpolation and merging over all probes and directions could create or lose energy at any of them.", "anchors": ["source/RadianceCascades.hpp march_and_merge_average_interval", "source/DynamicFormalSolution3d.cpp march_and_merge_average_interval_3d", "source/RayMarching.hpp multi_level_dda_raymarch_2d", "source/MergeToJ.hpp"]}
{"id": "C76", "title": "The rays of a probe are distinct unit vectors, balanced over the sphere, and refined consistently by the next cascade", "statement": "In every cascade the directions of a probe are distinct unit vectors that sum to zero, so a uniform flow has zero mean Doppler shift; the rays of the next cascade that a ray merges with lie inside its sector (2D) or HEALPix pixel (3D) and are centred on it; in 2D the second moments are isotropic; no ray is parallel to a coordinate plane where a division by its component is made.", "quantifier": "all numbers of directions, cascades, branching factors and direction indices, 2D and 3D", "why_tests_cant": "Ranges over every index of every cascade; HEALPix indices go through bit tricks.", "anchors": ["source/RcUtilsModes.hpp ray_dir", "source/RcUtilsModes.hpp inverted_mu", "source/RcUtilsModes3d.hpp ray_dir"]}
{"id": "C77", "title": "The segment marched for a ray is its interval, traversed towards the probe", "statement": "For every probe, direction and cascade, the segment marched visits exactly the points whose distance from the probe centre lies in the interval of the cascade along the direction, from the far to the near end, at unit speed, and Doppler shifts use the direction of the march; every distance up to the end of the last interval belongs to exactly one cascade.", "quantifier": "all probes, directions, cascades and ray-length configurations, 2D and 3D", "why_tests_cant": "Wrong lengths or reversed segments at some direction or cascade are invisible to tests on others; the length is computed by dividing by a direction component.", "anchors": ["source/RcUtilsModes.hpp ray_props", "source/RcUtilsModes.hpp invert_direction", "source/RayMarching.hpp ray_seg_from_ray_props", "source/RcUtilsModes3d.hpp probe_ray", "source/RcUtilsModes.hpp cascade_interval_length"]}
{"id": "C78", "title": "Marching a ray solves the transfer equation along it", "statement": "For every ray, the intensity and optical depth returned by the ray march are the values, at the near end of the part of the segment that lies in the grid, of the solution of the transfer equation dI/ds = eta - chi I in the medium made of the grid cells, starting from the boundary intensity when the segment starts outside the grid (and from zero otherwise); every ray with a piece in the grid is marched, the march ends, and the operator element is the response to the emissivity of the cell at the near end.", "quantifier": "all rays, grids, level patterns, media and boundary intensities, 2D and 3D", "why_tests_cant": "The march composes clipping, a traversal with special cases at faces, corners and level changes, and an accumulation; the result is wrong only for particular geometries that tests do not hit.", "anchors": ["source/RayMarching.hpp multi_level_dda_raymarch_2d", "source/DynamicFormalSolution3d.cpp multi_level_dda_raymarch_3d", "source/BlockMap.hpp MultiLevelDDA", "source/Types.hpp RaySegment"]}
{"id": "C79", "title": "The formal solution is physical end to end", "statement": "A formal solution through an atmosphere (rays, march, cascades and merges together) gives intensities between zero and the largest source function and boundary intensity; exactly S for all light travelling upwards in a medium of source function S lit by S; the sum of the solutions for parts of the emission; never less when emission is added. Each ray uses its own wavelength, direction, position, inclination and cascade interval, and the boundary only in the last cascade for upward light.", "quantifier": "all atmospheres, opacities, emissivities, boundaries, grids, level patterns, cascade configurations, schedules and buffer contents; 2D and 3D", "why_tests_cant": "The physical bounds depend on every stage being consistent with the others: a wrong direction, length or weight at one stage shows only for some atmospheres and probes.", "anchors": ["source/RadianceCascades.hpp cascade_i_25d march_and_merge_average_interval", "source/DynamicFormalSolution3d.cpp compute_cascade_i_3d", "source/RayMarching.hpp multi_level_dda_raymarch_2d", "source/DynamicFormalSolution.cpp dynamic_formal_sol_rc"]}
{"id": "C80", "title": "The radiative rates are the full quadrature over wavelengths and rays", "statement": "After an iteration the rate matrix of every atom in every cell is the collisional rates plus the sum over all wavelengths and all rays of the preconditioned rates of exactly the transitions of that atom active at the wavelength, each added once, whatever the batching, the ranks, the passes over directions and the threads. A level gains atoms at the rate at which photons are emitted and absorbed in its transitions, independently of the approximate operator; in black-body radiation LTE populations do not change; in a uniform field a line has exactly its Einstein coefficients; rates are not negative while the approximate operator takes no more than is there.", "quantifier": "all model atoms, atmospheres, velocities, wavelength grids, batches, distributions over ranks, thread interleavings, angular quadratures, intensities, approximate operators and Voigt functions; 2D and 3D", "why_tests_cant": "A transition counted twice, a wavelength or direction left out, a weight or profile factor of another quadrature gives rates that are slightly wrong everywhere; a test on one atom and one grid cannot exclude it for the others.", "anchors": ["source/DynamicFormalSolution.cpp dynamic_compute_gamma_nonatomic", "source/DynamicFormalSolution3d.cpp dynamic_compute_gamma", "source/GammaMatrix.hpp add_to_gamma", "source/ProfileNormalisation.cpp compute_profile_normalisation", "source/main.cpp"]}
{"id": "C81", "title": "The model atmosphere is loaded as it is in the file", "statement": "Loading a complete dense file succeeds; exactly the tiles with a cell at or below the threshold temperature are kept (all when it is zero); every kept cell has the values of the file under the right names, missing offsets are zero, neutral hydrogen starts at zero, and the atmosphere counts as moving exactly when some cell is faster than 10 m/s. A file that is marked sparse loads with its tiles and values; incomplete files, files on a part of a tile and sparse files of another block size are rejected. A sparse file saved from a model loads as the same model as the dense file it came from.", "quantifier": "all files, grid sizes that fit the address type, thresholds, velocities including NaN, orders of the kernels and shapes of the reductions; 2D and 3D", "why_tests_cant": "A swapped field, a lost tile or a test that depends on how threads divide the work shows up only for some grids and schedules; the number of files is unbounded.", "anchors": ["source/Atmosphere.hpp load_atmos, load_atmos_3d_host, load_sparse_atmosphere, atmosphere_file_is_sparse", "source/BlockMap.cpp init_and_sparsify_atmos", "source/MiscSparse.cpp sparsify_atmosphere"]}
{"id": "C82", "title": "A run with given emissivity and opacity gives the J of the file (2D)", "statement": "For every file that holds emissivities and opacities of a grid of whole tiles, a run in GivenFs mode ends normally without touching memory outside its arrays, and the J it writes is, at every cell and wavelength, the angular mean of the radiance of exactly the atmosphere in the file: every cell read at its own place and wavelength, seen at the level of detail that the variance tests allow. The result does not depend on the schedule, on what memory held before or on where J is kept. J is bounded by the largest source function, zero without emission, and, without levels of detail, is computed for every wavelength from that wavelength alone, adds up over emissivities and grows with them. Incomplete files and files that are not whole tiles are rejected.", "quantifier": "all files, grid sizes that fit the address type, settings, numbers of cascades and wavelengths, orders of the iterations of every kernel, contents of uninitialised memory", "why_tests_cant": "The property is about the composition of nine kernels over all files and schedules; a test compares one file with a stored result.", "anchors": ["source/main.cpp init_given_emis_opac, allocate_J, main GivenFs loop", "source/StaticFormalSolution.cpp static_formal_sol_given_rc", "source/Mipmaps.cpp compute_mips", "source/RadianceCascades.hpp cascade_i_25d", "source/MergeToJ.hpp merge_c0_to_J"]}
{"id": "C83", "title": "LTE populations and neutral hydrogen of the whole atmosphere", "statement": "Computing LTE populations writes, for every atom, level and cell, the LTE population of that level for the conditions of that cell and the abundance of that atom, inside the array, for every order of the threads and of the kernels of different atoms; per cell and atom they are positive, add up to abundance times hydrogen density, and obey Saha and Boltzmann. Neutral hydrogen is the ground level of the hydrogen model if there is one, otherwise the neutral part in Saha equilibrium, between 0 and the hydrogen density.", "quantifier": "all lists of atoms, numbers of levels and cells, conditions, previous contents of the array, orders of threads", "why_tests_cant": "A slice that starts at the wrong row shows up only with several atoms, and an ordering error only in some schedules.", "anchors": ["source/Populations.cpp compute_lte_pops_flat, compute_lte_pops, compute_nh0", "source/Populations.hpp lte_pops", "source/Utils.hpp slice_pops"]}
{"id": "C84", "title": "Velocity table of the VelocityInterp line scheme", "statement": "With LINE_SCHEME VelocityInterp, every ray of the directions a table was built for gets the emissivity and opacity of the cell at the projected velocity it sees, up to the error of linear interpolation between the bins: the velocity range of the table covers the projections of all rays, of all cascades and inclinations, that belong to those directions; table accesses stay in bounds, sampled values stay within the table, and coarser levels average the four cells below.", "quantifier": "all cell velocities, directions, cascades, inclinations, profiles, numbers of bins and tables", "why_tests_cant": "The extreme projection over a patch of directions is reached at an interior point for some velocities only; missing it silently clamps the profile.", "anchors": ["source/DirectionalEmisOpacInterp.cpp compute_min_max_vel, compute_subset_mip_n", "source/DirectionalEmisOpacInterp.hpp fill, sample", "source/RcUtilsModes.hpp c0_flat_dir_angular_range", "source/Utils.hpp dir_to_angs, angs_to_dir"]}
{"id": "C85", "title": "Line sweeping: lines, storage, extension and interpolation", "statement": "With RAYMARCH_TYPE LineSweep, the lines of a direction cover the grid one step apart (exactly the lines of the family that have half a step or more inside), every sample of every line has its own place in the storage and every flat index is one sample, the extension leaves in each sample what one march over the whole interval would give (in any order of teams and threads), and the value interpolated to a probe never leaves the storage, reproduces uniform samples and samples at which the probe lies, and stays within the samples (no negative radiance, no negative optical depth), taken only from the interval of the probe.", "quantifier": "all grids, directions without zero component, steps, probes, storages and schedules", "why_tests_cant": "Which lines exist and where a probe falls between them depends on grid, angle and step together; off-by-one samples or weights change radiances by a few per cent only.", "anchors": ["source/LineSweepSetup.hpp LsLine, intersects, clip", "source/LineSweepSetup.cpp select_origin, construct_line_sweep_subset", "source/LineSweeping.hpp compute_line_sweep_samples, world_to_line_grid_pos, interpolate_line_sweep_samples_to_cascade"]}
{"id": "C86", "title": "An Lte run, end to end (2D)", "statement": "For every complete dense atmosphere file and all atomic data the program can handle, an Lte run ends normally, touches no memory outside its arrays, and the J it has is the angular mean of the radiance of the gas in LTE: populations by Saha and Boltzmann, all lines (Doppler shifted by the velocity along each ray) and continua, marched through the atmosphere. J does not depend on the order of any kernel, on what memory held, on how many wavelengths are computed together, on where J is kept or on the number of line slots; thermal gas gives J between 0 and the largest Planck function; bad files and batches with more lines than slots never give a result.", "quantifier": "all dense atmosphere files, atomic data, settings without levels of detail, kernel schedules, initial memory contents, batch sizes", "why_tests_cant": "The result passes through the loader, populations, hydrogen density, line precomputation, mip filling, lookup, march, cascades and the merge; each is tested alone on one atmosphere, none over all inputs and schedules, and the composition is only compared by eye.", "anchors": ["source/main.cpp init_atmos_atoms, main (Lte branch)", "source/DynamicFormalSolution.cpp dynamic_formal_sol_rc", "source/Mipmaps.cpp fill_mip0_atomic", "source/CoreAndVoigtEmisOpac.cpp", "source/RayMarching.hpp"]}
{"id": "C87", "title": "Synthetic images by dexrt_ray, end to end (2D)", "statement": "For every dense atmosphere file, every output (dense or sparse) of a model run on it with at least as many levels as the atoms have, every list of views and wavelengths, the tool ends normally, touches no memory outside its arrays, and writes, per view, the wavelengths asked for, the viewing directions, and for every ray and wavelength the intensity and optical depth of the light that enters at the boundary and passes through the gas of that output (its populations, electron and hydrogen densities, Doppler shifted velocities). These values do not depend on the order of any kernel or on what memory held or on other views; without holes in the atmosphere they are the exact solution of the transfer equation along the ray (in steps of constant gas); intensity lies between bounds of source function and boundary light, optical depth is not negative. Bad configurations are rejected; an output with too few levels is rejected.", "quantifier": "all atmosphere files, outputs, views, wavelengths, thresholds, kernel schedules, initial memory contents", "why_tests_cant": "The result passes through the loader, sparsification, repacking of the output, emissivity kernels, traversal, integration and array reuse between views; no test runs the tool, and the statement ranges over all views, atmospheres and schedules.", "anchors": ["source/dexrt_ray.cpp main, load_dex_output, update_atmosphere, compute_ray_intensity", "source/RayMarching.hpp", "source/BlockMap.hpp", "source/EmisOpac.hpp"]}
{"id": "C88", "title": "Formal solution with given emissivity and opacity, end to end (3D)", "statement": "For every file of given emissivities and opacities on a 3D grid of whole tiles, and every number of cascades that fits the grid, the run ends normally, touches no memory outside its arrays, and leaves in J, for every wavelength and cell, in the flattened [z][y][x] order, the mean over the HEALPix directions of cascade 0 of the cascaded intensities, where the interval of each ray is the solution of the transfer equation through the cells of the file that the ray meets, and each ray of a cascade continues with the trilinear average of its children in the next. The result depends on nothing but the file and the settings: not on schedule, on old memory, or on the other wavelengths. Hence J lies between 0 and the largest source function, is 0 where nothing emits, is additive and monotone in the emissivity. A file without one of the required dimensions or arrays, or with sides that are not whole tiles, is rejected.", "quantifier": "all files, grid sizes, cascades, wavelengths, kernel schedules, initial memory contents", "why_tests_cant": "The result passes through the loader, copies per wavelength, tile lookup, traversal, five cascades and atomic sums; no test runs it, and the claims range over all files, grids and schedules.", "anchors": ["source/main_3d.cpp init_given_emis_opac, allocate_J", "source/StaticFormalSolution3d.cpp static_formal_sol_rc_given_3d, march_and_merge_average_interval_3d, merge_c0_to_J_3d", "source/Mipmaps3d.cpp compute_mips", "source/RayMarching.hpp"]}
{"id": "C89", "title": "A NonLte run, end to end (2D)", "statement": "For every atmosphere file that describes gas on a 2D grid of whole tiles and every set of atoms that a run accepts, a NonLte run has no undefined behaviour whatever the order of its kernels and whatever memory held. It either meets rates that cannot be balanced (zero pivot) or ends after a number of iterations; it starts from the LTE populations of the file; every iteration finds the light of the gas with the present populations (intervals of all cascades marched through the gas, merged to the ray intensities of cascade 0), its angular mean J, and from it and the collisions of every atom the rates in every cell; the new populations of every atom and cell balance these rates and add up to abundance times hydrogen density. The first initial_lambda_iterations iterations use no approximate operator; it stops after max_iter iterations or as soon as an iteration after the first initial_lambda_iterations + 1 changed no population above the ignored fraction by more than the tolerance. The populations left are those after the last iteration; J is that of the populations before it. Populations are positive if rates are connected and non-negative, and populations that an iteration leaves unchanged satisfy the equations of statistical equilibrium with their own light.", "quantifier": "all atmosphere files, atoms, cells, wavelengths, iterations, kernel schedules, initial memory contents", "why_tests_cant": "The loop composes a dozen kernels over millions of cells; what it converges to and whether it can read outside an array are claims about all inputs and schedules, and no test runs it.", "anchors": ["source/main.cpp (NonLte loop)", "source/DynamicFormalSolution.cpp dynamic_formal_sol_rc", "source/Collisions.cpp compute_collisions_to_gamma", "source/ProfileNormalisation.cpp compute_profile_normalisation", "source/Populations.cpp stat_eq_impl, compute_nh0"]}
{"id": "C90", "title": "Lambda iterations cannot fail (2D)", "statement": "For every atmosphere with positive temperatures and densities and every set of atoms with physical data (non-negative Einstein coefficients, cross-sections, tables, weights; electron collisions that connect the levels of each atom), whatever the velocities, the kernel orders and the memory contents, and even where levels are inverted: the light that arrives in a cell is not negative along any ray; without approximate operator no rate is negative and every level can reach every other; so the first initial_lambda_iterations iterations of a NonLte run always succeed and leave positive populations that add up to the abundance of the element, and J is not negative. A run can only fail in an iteration with approximate operator.", "quantifier": "all atmosphere files, atoms, populations, cells, rays, wavelengths, kernel schedules, initial memory contents", "why_tests_cant": "Positivity must hold for every atmosphere and every intermediate state of the iteration; tests can only sample some.", "anchors": ["source/main.cpp (NonLte loop)", "source/RayMarching.hpp dda_raymarch_2d", "source/GammaMatrix.hpp", "source/Collisions.hpp", "source/Populations.cpp stat_eq_impl"]}
{"id": "C91", "title": "An Lte run, end to end (3D)", "statement": "For every complete dense 3D atmosphere file and every well-formed set of atomic data, whatever the order in which kernel iterations run and whatever memory held before: a 3D run in Lte mode ends normally, without an access outside any array, and the J it saves is, at every wavelength and cell in (z, y, x) order, the angular mean of the radiance of the gas of the file with its LTE populations, velocities, lines, continua and neutral hydrogen. J depends on the atmosphere inside the grid only, not on where J is kept, the number of line slots or the number of initial Lambda iterations; for thermal gas it lies between 0 and the largest Planck function of any cell; a defective file is rejected with an error, and so is atomic data with more overlapping lines than there are slots.", "quantifier": "all dense 3D atmosphere files, atomic data, wavelengths, cells, kernel schedules, initial memory contents", "why_tests_cant": "The result must be right for every atmosphere, every atom and every schedule; tests can only compare a few runs.", "anchors": ["source/main_3d.cpp init_atmos_atoms, main", "source/DynamicFormalSolution3d.cpp dynamic_formal_sol_rc_3d", "source/Mipmaps3d.cpp fill_mip0_atomic", "source/CoreAndVoigtEmisOpac.cpp"]}
{"id": "C92", "title": "Synthetic images by dexrt_ray_3d, end to end", "statement": "For every complete dense 3D atmosphere file, the output of a model run of it in sparse form, and every list of views, image size, supersampling and wavelengths, whatever the order in which kernel iterations run and whatever memory held before: dexrt_ray_3d ends normally, without an access outside any array, and writes for each view, wavelength and pixel the intensity and optical depth seen from the centre of the pixel along the line of sight: through the gas with the populations and densities of the output, moving with the velocities of the file, in front of the boundary condition for downward views. Two runs write the same images; the intensity is the solution of the transfer equation and lies between the bounds of source function and background. Outputs in dense form are read as well, and configurations or outputs that do not fit the atoms are rejected with an error.", "quantifier": "all 3D atmosphere files, outputs, views, wavelengths, pixels, kernel schedules, initial memory contents", "why_tests_cant": "Each pixel combines traversal, lookup, populations, profiles and boundary; tests can compare a few images only.", "anchors": ["source/dexrt_ray_3d.cpp main, parse_ray_config, compute_ray_set, compute_ray_intensity, update_atmosphere, load_dex_output", "source/BlockMap.hpp MultiResBlockMap", "source/RayMarching.hpp MultiLevelDDA"]}
{"id": "C93", "title": "A NonLte run, end to end (3D)", "statement": "For every atmosphere file that describes gas on a 3D grid of whole tiles and every set of atoms that a run accepts and whose overlapping lines fit the line slots, a NonLte run has no undefined behaviour whatever the order of its kernels and whatever memory held. It either meets rates that cannot be balanced (zero pivot) or ends after a number of iterations; it starts from the LTE populations of the file; every iteration finds the light of the gas with the present populations (intervals of all cascades marched along the HEALPix directions, merged to the ray intensities of cascade 0), its angular mean J, and from it and the collisions of every atom the rates in every cell; the new populations of every atom and cell balance these rates and add up to abundance times hydrogen density. The first initial_lambda_iterations iterations use no approximate operator; it stops after max_iter iterations or as soon as an iteration after the first initial_lambda_iterations + 1 changed no population above the ignored fraction by more than the tolerance. The populations left are those after the last iteration; J is that of the populations before it. Populations are positive if rates are connected and non-negative, and populations that an iteration leaves unchanged satisfy the equations of statistical equilibrium with their own light.", "quantifier": "all 3D atmosphere files, atoms, cells, wavelengths, iterations, kernel schedules, initial memory contents", "why_tests_cant": "The loop composes a dozen kernels over millions of cells; what it converges to and whether it can read outside an array are claims about all inputs and schedules, and no test runs it.", "anchors": ["source/main_3d.cpp (NonLte loop)", "source/DynamicFormalSolution3d.cpp dynamic_formal_sol_rc_3d", "source/Collisions.cpp compute_collisions_to_gamma", "source/ProfileNormalisation.cpp compute_profile_normalisation", "source/Populations.cpp stat_eq_impl, compute_nh0"]}
{"id": "C94", "title": "Lambda iterations cannot fail (3D)", "statement": "For every 3D atmosphere with positive temperatures and densities and every set of atoms with physical data (non-negative Einstein coefficients, cross-sections, tables, weights; electron collisions that connect the levels of each atom), whatever the velocities, the kernel orders and the memory contents, and even where levels are inverted: the light that arrives in a cell is not negative along any ray; without approximate operator no rate is negative and every level can reach every other; so the first initial_lambda_iterations iterations of a NonLte run always succeed and leave positive populations that add up to the abundance of the element, and J is not negative. A run can only fail in an iteration with approximate operator.", "quantifier": "all 3D atmosphere files, atoms, populations, cells, rays, wavelengths, kernel schedules, initial memory contents", "why_tests_cant": "Positivity must hold for every atmosphere and every intermediate state of the iteration; tests can only sample some.", "anchors": ["source/main_3d.cpp (NonLte loop)", "source/RayMarching.hpp dda_raymarch_3d", "source/GammaMatrix.hpp", "source/Collisions.hpp", "source/Populations.cpp stat_eq_impl"]}
{"id": "C95", "title": "Every kernel visits each required probe exactly once", "statement": "The object that says which probes to compute can be made for a sparse run only with lists. In a dense run host and device agree on the number of probes of a cascade, every probe of the cascade is computed by exactly one loop index and nothing outside the grid is touched. In a sparse run exactly the listed probes of the cascade are computed, in the order of the list; a cascade without a list is an exception on the host before any kernel runs. Made from the state, it has a list for every cascade in use, and the dense object of the final pass does not depend on the sparse run before it. What it hands to a formal solution lies inside the grid and includes every probe that a merge interpolates from.", "quantifier": "all grid sizes, cascades, numbers of cascades, active tile sets, thread orders", "why_tests_cant": "Overflow and missing probes appear only for particular sizes and tile sets; a test covers one grid.", "anchors": ["source/ProbesToCompute.cpp", "source/Types.hpp DeviceProbesToCompute", "source/Types.hpp ProbesToCompute2d", "source/MiscSparse.cpp compute_active_probe_lists"]}
{"id": "C96", "title": "The merges a 2D build can select keep radiation within the bounds of the medium", "statement": "Whichever of the four ray configurations a 2D build selects, merging a cascade reads only entries that exist, of the same inclination, wavelength and pass, and with source functions and radiation above between m and M gives radiation between m and M (equilibrium when m = M, positivity when m = 0); without a cascade above all four give what the march of the ray gives; the approximate operator stored is that of the marched ray; the ray marched for an upper probe by the bilinear fix ends where the ray it replaces ends and starts where a ray it is merged with ends; the reprojection is exact on the directions of a probe.", "quantifier": "all configurations that compile, cascade geometries, passes, rays, marches, contents of the cascade above", "why_tests_cant": "The default build compiles one of the four; positivity and equilibrium must hold for every ray, probe and pass.", "anchors": ["source/RadianceCascades.hpp march_and_merge_bilinear_fix", "source/RadianceCascades.hpp march_and_merge_parallax_fix", "source/RadianceCascades.hpp march_parallax_fix_inner", "source/RadianceCascades.hpp parallax_fix_inner_merge", "source/RadianceCascades.hpp interp_probe_dir", "source/UserConfig2d.hpp RcConfiguration"]}
{"id": "C97", "title": "The long-characteristics mode in 3D gives the quadrature sum of its marches", "statement": "With the long-characteristics quadrature compiled in, for every quadrature, grid and order of execution the 3D formal solution stays within its arrays and gives at each probe and wavelength the weighted sum over the directions of the quadrature of what the march of that direction from the probe gives, independent of what memory held before; so J lies between 0 and the maximum of the marches when weights are positive with sum at most 1; and the marches depend on the given emissivities and opacities.", "quantifier": "all quadratures, grids, contents of memory, orders of the kernels, given atmospheres", "why_tests_cant": "The mode is off in the default build; independence from uninitialised memory cannot be observed by a test whose memory happens to be zero.", "anchors": ["source/StaticFormalSolution3d.cpp static_formal_sol_long_char_3d", "source/StaticFormalSolution3d.cpp merge_c0_to_J_3d", "source/UserConfig3d.hpp FORCE_LC_QUADRATURE", "source/CascadeState3d.cpp CascadeState3d_new"]}
{"id": "C98", "title": "The long-characteristics quadratures are angular means", "statement": "Each of the four direction sets that can be selected consists of distinct unit vectors with positive weights that sum to 1, is symmetric under reflection in every coordinate plane, and gives for every radiation field that is a polynomial of degree at most three in the direction its mean over the sphere (in particular isotropic radiation gives itself and the flux of a uniform field drops out), to the digits of the tables; the J of the long-characteristics mode is that quadrature.", "quantifier": "all selectable sets, directions, and radiation fields", "why_tests_cant": "A test would sample a few fields; exactness over all fields of degree three is an identity of the tables.", "anchors": ["source/UserConfig3d.hpp LC_SET", "source/UserConfig3d.hpp LC_QUAD_X", "source/UserConfig3d.hpp LC_WEIGHT", "source/StaticFormalSolution3d.cpp static_formal_sol_long_char_3d"]}
{"id": "C99", "title": "The trilinear fix of the 3D merge joins the intervals and averages with the right weights", "statement": "In a 3D build with trilinear_fix on, each ray below the last cascade gets exactly the average, with the trilinear hat weights, over the probes of the cascade above, of the radiation marched along the ray that joins the near end of the interval to the start of the upper probe's, entered with the mean of the upper rays that continue it; nothing outside the pass or the cascade above is read; the joined ray is a unit-direction ray with exactly those ends; and the result lies between the bounds of the source function and of the cascade above (equilibrium stays, positive stays positive).", "quantifier": "all branchings, cascades, probes, rays, passes, media, and contents of the cascade above", "why_tests_cant": "The fix is selected by a constant, and a test would compare a few rays; the claim is over all cascades and all media.", "anchors": ["source/DynamicFormalSolution3d.cpp march_and_merge_trilinear_interval_3d", "source/RcUtilsModes3d.hpp trilinear_probe_ray", "source/DynamicFormalSolution3d.cpp trilinear_fix"]}
