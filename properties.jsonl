{"id": "C01", "title": "Linear work split covers every item exactly once", "statement": "When a kernel splits N items in blocks of b over P pipelines plus the host, the P+1 index ranges handed out are consecutive, pairwise disjoint and their union is exactly 0..N-1; every pipeline starts on a multiple of b and processes a multiple of b items, and only the host gets the N mod b remainder. This holds although the boundaries are computed in rounded double arithmetic.", "quantifier": "all item counts N and block sizes b in int range, all pipeline counts P, all floating point roundings with relative error at most 2^-53", "why_tests_cant": "The number of (N,b,P) triples is astronomically large and a single off-by-one of the rounded quotient silently drops or double-processes particles.", "anchors": ["src/util/util_base.h:DISTRIBUTE", "src/collision/pipeline/unary_pipeline.cc:unary_pipeline_scalar", "src/collision/pipeline/langevin_pipeline.cc:langevin_pipeline_scalar"]}
{"id": "C02", "title": "Voxel work split visits every voxel of the box exactly once", "statement": "When a field kernel splits an axis aligned box of voxels over P pipelines plus the host, walking each piece with the kernel's 'advance to next voxel' rule visits every voxel of the box exactly once overall, and nothing outside it, including for empty boxes.", "quantifier": "all boxes (including degenerate ones), block sizes, pipeline counts and double roundings", "why_tests_cant": "Depends on the interplay of rounded division, the linear-to-3D conversion and the carry logic of the walk for every box shape.", "anchors": ["src/grid/grid.h:DISTRIBUTE_VOXELS", "src/grid/grid.h:NEXT_VOXEL", "src/field_advance/standard/pipeline/advance_b_pipeline.h:NEXT_STENCIL"]}
{"id": "C03", "title": "Voxel index is a bijection", "statement": "The voxel number of a cell, used by every array in the API, is in range 0..nv-1 for every cell including ghosts, and distinct cells have distinct voxel numbers, and every number is some cell.", "quantifier": "all grid sizes nx,ny,nz and all cells", "why_tests_cant": "A collision would only show for particular sizes; there are unboundedly many sizes.", "anchors": ["src/grid/grid.h:VOXEL", "src/grid/ops.cc:size_grid", "src/vpic/vpic.h:voxel"]}
{"id": "C04", "title": "Neighbour table is symmetric inside and across domains", "statement": "After building a periodic decomposition, the neighbour of a cell through a face is the geometrically adjacent cell of the global periodic mesh (on whichever rank owns it), so going through a face and back through the opposite face returns to the starting cell, and global cell ids of different ranks never collide.", "quantifier": "all global resolutions, all decompositions, all ranks, cells and faces", "why_tests_cant": "Each rank computes its table independently; consistency is a global property over all process counts.", "anchors": ["src/grid/ops.cc:size_grid,join_grid", "src/grid/partition.cc:partition_periodic_box"]}
{"id": "C05", "title": "Domain decomposition is consistent on all ranks", "statement": "Rank to domain-coordinate conversion and its inverse (with periodic wrap) are mutually inverse; if rank A believes B is its neighbour through a face then B believes A is its neighbour through the opposite face; and the message tag/port A sends on is the one B receives on.", "quantifier": "all process grids and ranks, all 26 port directions", "why_tests_cant": "Needs all ranks' views simultaneously for all process counts; a mismatch is a deadlock at scale.", "anchors": ["src/grid/partition.cc:RANK_TO_INDEX,INDEX_TO_RANK", "src/grid/grid_comm.cc:begin_recv_port,begin_send_port", "src/boundary/boundary_p.cc:f2b,f2rb"]}
{"id": "C06", "title": "Particle sort returns a sorted permutation", "statement": "sort_p rearranges the particle array into one ordered by voxel that contains exactly the same particles (same multiset); no particle is lost, duplicated or altered.", "quantifier": "all particle lists with voxels in the local domain, all pipeline counts", "why_tests_cant": "The result is assembled from per-pipeline counting passes; correctness must hold for all distributions of particles over voxels and pipelines.", "anchors": ["src/species_advance/standard/pipeline/sort_p_pipeline.cc:sort_p_pipeline", "src/species_advance/standard/sort_p.cc:sort_p"]}
{"id": "C07", "title": "Sort partition table locates each voxel's particles", "statement": "After sort_p, the particles with voxel v are exactly those at indices partition[v] .. partition[v+1]-1, for every voxel v of the local mesh.", "quantifier": "all particle lists, meshes, pipeline counts, voxels", "why_tests_cant": "Collision operators index particles through this table without checks; needs every voxel and every particle distribution.", "anchors": ["src/species_advance/standard/pipeline/sort_p_pipeline.cc:subsort_pipeline_scalar", "src/species_advance/standard/pipeline/spa_private.h:V2P,P2V"]}
{"id": "C08", "title": "Parallel sort gives the same answer for any pipeline count", "statement": "The particle order produced by sort_p does not depend on the number of pipelines, and equals the stable sort by voxel; the legacy serial sort's out-of-place variant produces the same order.", "quantifier": "all particle lists, any two pipeline counts", "why_tests_cant": "Reproducibility across thread counts cannot be sampled; it is an equality of two parameterised programs.", "anchors": ["src/species_advance/standard/pipeline/sort_p_pipeline.cc", "src/species_advance/standard/sort_p.cc"]}
{"id": "C09", "title": "In-place cycle sort terminates and agrees", "statement": "The legacy in-place sort terminates and yields a permutation sorted by voxel with the same partition table as the out-of-place variant.", "quantifier": "all particle lists with valid voxels", "why_tests_cant": "Termination and correctness of cycle chasing depends on every permutation structure.", "anchors": ["src/species_advance/standard/sort_p.cc:108-138"]}
{"id": "C10", "title": "Advance keeps the mover list strictly increasing", "statement": "After advance_p has pushed a species with any number of pipelines, the movers handed to boundary processing have strictly increasing particle indices, all below np, there are at most max_nm of them, and they are exactly the particles whose push could not be completed (minus those reported as ignored when storage ran out).", "quantifier": "all particle lists, pipeline counts, mover capacities, sets of unfinished particles", "why_tests_cant": "Boundary processing silently corrupts the particle list when this fails; depends on per-pipeline segment arithmetic for all sizes.", "anchors": ["src/species_advance/standard/pipeline/advance_p_pipeline.cc:advance_p_pipeline", "src/boundary/boundary_p.cc:248-255"]}
{"id": "C11", "title": "Backfill removes exactly the processed particles", "statement": "When boundary processing removes the particles named by a strictly increasing mover list, in reverse order with backfill from the end, the surviving array holds exactly the particles not named (each once), and np decreases by the number of movers.", "quantifier": "all particle arrays and all strictly increasing mover lists", "why_tests_cant": "Must hold for every subset of particles, including adjacent runs at the end of the array.", "anchors": ["src/boundary/boundary_p.cc:257-376", "src/vpic/advance.cc:89-100"]}
{"id": "C12", "title": "No particle is lost or duplicated in inter-domain exchange", "statement": "In one round of boundary processing over all ranks, every particle that hit a boundary is either absorbed (with its charge deposited), handed once to its custom handler, dropped with a warning, or appears exactly once on exactly the neighbouring rank (same species, momentum, weight and remaining displacement); no other particle changes rank.", "quantifier": "all numbers of ranks, all decompositions, all particle and mover lists, all neighbour tables produced by the grid setup", "why_tests_cant": "Global conservation over any number of processes and any traffic pattern.", "anchors": ["src/boundary/boundary_p.cc:boundary_p"]}
{"id": "C13", "title": "Exchange never overruns its storage", "statement": "Send buffers, the local reinjection buffer and the resized particle and mover arrays are always large enough for what is written during the exchange round, whatever the traffic; growing or shrinking keeps all live particles.", "quantifier": "all traffic patterns and storage sizes", "why_tests_cant": "Memory safety for every load pattern.", "anchors": ["src/boundary/boundary_p.cc:197-229,448-552", "src/boundary/boundary_p.cc:635-710"]}
{"id": "C14", "title": "End of step leaves no unfinished particle", "statement": "After the communication rounds of a time step, every particle that still has an unfinished mover is removed from the list, its charge is deposited on the mesh with its voxel decoded, all other particles are kept exactly once, and the mover list is empty.", "quantifier": "all particle lists and strictly increasing mover lists", "why_tests_cant": "Rare event in practice, so tests never cover it; must hold for all lists.", "anchors": ["src/vpic/advance.cc:78-101"]}
{"id": "C15", "title": "Particle move follows the straight trajectory and stays in its cell", "statement": "move_p advances a particle along its remaining displacement cell by cell; after every segment the in-cell coordinates are within [-1,1]; when it reports completion the total physical displacement equals the requested displacement (mirror-reflected at reflecting walls) and when it reports 'unfinished' the done part plus the remaining part equals the request and the particle sits exactly on the reported face.", "quantifier": "all starting positions in a cell, all displacements, all neighbour tables, any number of cell crossings", "why_tests_cant": "Continuum of trajectories crossing any number of cells.", "anchors": ["src/species_advance/standard/move_p.cc:215-378"]}
{"id": "C16", "title": "Moving a particle conserves charge exactly", "statement": "The current deposited while moving a particle satisfies the discrete continuity equation with the charge density deposited before and after the move, at every mesh node: (rho_new - rho_old)/dt + div J = 0 (exact arithmetic).", "quantifier": "all positions, displacements, weights, charges, cell sizes, any number of cells crossed", "why_tests_cant": "An algebraic identity over a continuum, through unboundedly many cell crossings.", "anchors": ["src/species_advance/standard/move_p.cc:accumulate_j", "src/species_advance/standard/rho_p.cc:accumulate_rho_p", "src/sf_interface/pipeline/unload_accumulator_pipeline.cc"]}
{"id": "C17", "title": "In-cell push deposits the same current as the segment mover", "statement": "For a particle that stays in its cell during advance_p, the position update and deposited current are the same as what the segment mover would produce for that displacement, so charge conservation does not depend on which path a particle takes.", "quantifier": "all positions and displacements that stay inside the cell", "why_tests_cant": "Two separately written formulas over a continuum.", "anchors": ["src/species_advance/standard/pipeline/advance_p_pipeline.cc:20-240", "src/species_advance/standard/move_p.cc"]}
{"id": "C18", "title": "Magnetic rotation does no work", "statement": "The momentum rotation in advance_p, center_p, uncenter_p and hydro accumulation leaves |u| unchanged for every magnetic field (exact arithmetic), so a pure magnetic field never changes kinetic energy.", "quantifier": "all momenta, fields, charge-to-mass ratios and time steps", "why_tests_cant": "Identity over a continuum of inputs.", "anchors": ["src/species_advance/standard/pipeline/advance_p_pipeline.cc", "src/species_advance/standard/pipeline/center_p_pipeline.cc", "src/species_advance/standard/pipeline/uncenter_p_pipeline.cc"]}
{"id": "C19", "title": "Centering and uncentering are inverse", "statement": "center_p followed by uncenter_p (and the reverse) with the same fields restores every particle's momentum (exact arithmetic).", "quantifier": "all momenta, fields, time steps", "why_tests_cant": "Identity over a continuum of inputs.", "anchors": ["src/species_advance/standard/pipeline/center_p_pipeline.cc", "src/species_advance/standard/pipeline/uncenter_p_pipeline.cc"]}
{"id": "C20", "title": "Charge density deposition is exact and local", "statement": "accumulate_rho_p adds, for each particle, non-negative (for positive charge) trilinear amounts to the eight corners of its own cell only; the amounts sum to exactly its charge over the cell volume, reproduce its position as first moment, and deposition is independent of particle order.", "quantifier": "all particle lists, positions in the cell, weights, charges", "why_tests_cant": "Continuum of positions and arbitrarily long lists.", "anchors": ["src/species_advance/standard/rho_p.cc:accumulate_rho_p"]}
{"id": "C21", "title": "Bound charge deposition at walls conserves charge", "statement": "accumulate_rhob deposits a particle's charge so that, weighting each node by the part of its cell volume inside the local domain (half on faces, quarter on edges, eighth on corners), the total deposited equals exactly the particle's charge.", "quantifier": "all mesh sizes, cells, positions, weights", "why_tests_cant": "All combinations of wall adjacency and positions, incl. one-cell-wide domains.", "anchors": ["src/species_advance/standard/rho_p.cc:accumulate_rhob"]}
{"id": "C22", "title": "Moment (hydro) deposition conserves totals", "statement": "accumulate_hydro_p distributes each particle's charge, current, momentum, energy and stress over the eight corners of its cell with weights that sum to its full contribution.", "quantifier": "all particles, positions, momenta and fields", "why_tests_cant": "Continuum of inputs.", "anchors": ["src/species_advance/standard/pipeline/hydro_p_pipeline.cc"]}
{"id": "C23", "title": "Field interpolation is exact on edges/faces and continuous", "statement": "The loaded interpolator reproduces the mesh value of each electric field component at the edge where it lives and each magnetic component at its face, and normal/tangential continuity holds: the value interpolated on a shared face from either adjacent cell agrees for tangential E and normal B.", "quantifier": "all field values, mesh sizes, cells and in-cell positions", "why_tests_cant": "Continuum of values and positions.", "anchors": ["src/sf_interface/pipeline/interpolator_array_pipeline.cc", "src/species_advance/standard/pipeline/advance_p_pipeline.cc"]}
{"id": "C24", "title": "Magnetic advance preserves div B", "statement": "advance_b leaves the discrete divergence of B unchanged in every interior cell of every domain (exact arithmetic), including degenerate directions with one cell.", "quantifier": "all field values, mesh sizes, time steps, fractions, numbers of steps", "why_tests_cant": "Identity over all field configurations and histories.", "anchors": ["src/field_advance/standard/pipeline/advance_b_pipeline.h", "src/field_advance/standard/pipeline/compute_div_b_err_pipeline.cc"]}
{"id": "C25", "title": "Electric advance preserves the Gauss-law residual", "statement": "If the current satisfies discrete continuity with the charge density, then advance_e changes div(eps E) by exactly the change of charge density at interior nodes in a non-conducting, undamped medium, so the reported divergence error does not grow (exact arithmetic).", "quantifier": "all fields, currents, charge densities satisfying continuity, materials maps, number of steps", "why_tests_cant": "Identity over all configurations and any number of steps.", "anchors": ["src/field_advance/standard/pipeline/advance_e_pipeline.h", "src/field_advance/standard/pipeline/compute_div_e_err_pipeline.h"]}
{"id": "C26", "title": "Field advances update each component exactly once", "statement": "advance_b, advance_e and the divergence cleaners update every field component that exists on the local mesh exactly once per call, for every mesh size including one cell in any direction, for every pipeline count; interior work never reads a ghost value that is still in flight.", "quantifier": "all mesh sizes >= 1 in each direction and pipeline counts", "why_tests_cant": "A missing or doubled row only shows for specific shapes.", "anchors": ["src/field_advance/standard/pipeline/advance_b_pipeline.cc", "src/field_advance/standard/pipeline/advance_e_pipeline.cc", "src/field_advance/standard/pipeline/clean_div_b_pipeline.cc", "src/field_advance/standard/pipeline/clean_div_e_pipeline.cc"]}
{"id": "C27", "title": "Divergence cleaning leaves a clean field alone and contracts the error", "statement": "If the divergence error is zero everywhere, cleaning does not change the field; otherwise on a periodic mesh one cleaning pass never increases the sum of squared divergence errors.", "quantifier": "all field configurations and mesh sizes with at least one resolved direction", "why_tests_cant": "Inequality over all configurations.", "anchors": ["src/field_advance/standard/pipeline/clean_div_b_pipeline.cc", "src/field_advance/standard/pipeline/compute_div_b_err_pipeline.cc"]}
{"id": "C28", "title": "RMS divergence error weights every node by its share of the domain", "statement": "compute_rms_div_e_err weighs nodes so that over the local domain the weights add up to nx*ny*nz (interior 1, faces 1/2, edges 1/4, corners 1/8), each node being counted exactly once.", "quantifier": "all mesh sizes >= 1 and pipeline counts", "why_tests_cant": "All shapes incl. degenerate ones.", "anchors": ["src/field_advance/standard/pipeline/compute_rms_div_e_err_pipeline.cc"]}
{"id": "C29", "title": "Field energy is the same for every pipeline count and non-negative", "statement": "energy_f returns the energy of the fields summed over each cell exactly once, independent of the number of pipelines, and non-negative for non-negative material constants.", "quantifier": "all fields, mesh sizes, pipeline counts", "why_tests_cant": "All shapes and values.", "anchors": ["src/field_advance/standard/pipeline/energy_f_pipeline.cc", "src/field_advance/standard/pipeline/energy_f_pipeline.h"]}
{"id": "C30", "title": "Shared currents and charges agree on all ranks after synchronisation", "statement": "After synchronize_jf / synchronize_rho / synchronize_hydro_array, every mesh quantity stored redundantly on several ranks (faces, edges and corners shared by 2, 4 or 8 ranks) has the same value on all of them, equal to the sum of all ranks' contributions for free currents, free charge and moments and to their mean for the bound charge (each contribution corrected at walls, where half the cells are missing); quantities not shared and members not synchronised are unchanged.", "quantifier": "all process grids, mesh sizes, initial values", "why_tests_cant": "Needs all ranks simultaneously and the x-y-z pass composition for corners.", "anchors": ["src/field_advance/standard/remote.cc:synchronize_jf,synchronize_rho", "src/sf_interface/hydro_array.cc:synchronize_hydro_array"]}
{"id": "C31", "title": "Field resynchronisation makes copies agree and measures desync", "statement": "After synchronize_tang_e_norm_b all redundant copies of tangential E and normal B are equal; each is the mean of what the copies held; the returned error is never negative, is zero exactly when the copies already agreed, and in that case E and B are left as they were (up to the wall conditions applied first).", "quantifier": "all process grids, mesh sizes, field values", "why_tests_cant": "Multi-rank property over all values.", "anchors": ["src/field_advance/standard/remote.cc:synchronize_tang_e_norm_b"]}
{"id": "C32", "title": "Exchange messages are sized and ordered consistently", "statement": "For each field/hydro exchange, the number of values written by the sender equals the size announced by the receiver, the receiver unpacks them in the order packed, and each unpacked value lands on the same global mesh entity.", "quantifier": "all mesh sizes and directions", "why_tests_cant": "Each of 3x2 directions with generic sizes.", "anchors": ["src/field_advance/standard/remote.cc", "src/field_advance/standard/local.cc:25-44", "src/sf_interface/hydro_array.cc"]}
{"id": "C33", "title": "Local wall conditions enforce their symmetry", "statement": "After the boundary adjust steps, tangential E is zero on conducting walls and normal B is zero on symmetric walls, the ghost values satisfy the declared (anti)symmetry, and an unknown boundary code is reported as an error instead of being ignored.", "quantifier": "all mesh sizes, faces, boundary codes, field values", "why_tests_cant": "All faces and shapes.", "anchors": ["src/field_advance/standard/local.cc"]}
{"id": "C34", "title": "Accumulator reduction adds up all private copies", "statement": "reduce_accumulator_array leaves in the first array, at every voxel a particle can touch, the sum of all pipelines' private arrays, for any number of arrays and pipelines; elements are combined exactly once and no access leaves the allocated storage.", "quantifier": "all numbers of arrays, strides, pipeline counts, contents", "why_tests_cant": "Chunks of nine arrays with remainder handling; all counts.", "anchors": ["src/sf_interface/pipeline/reduce_array_pipeline.cc", "src/sf_interface/accumulator_array.cc"]}
{"id": "C35", "title": "Array clearing covers the whole array", "statement": "clear_accumulator_array and clear_hydro_array set to zero, in every pipeline's private copy, every value of every voxel that particles can deposit into, for any pipeline count, and change nothing outside of the announced range.", "quantifier": "all sizes and pipeline counts", "why_tests_cant": "All sizes.", "anchors": ["src/sf_interface/pipeline/clear_array_pipeline.cc"]}
{"id": "C36", "title": "Thread dispatcher runs each job exactly once before wait returns", "statement": "Under every interleaving of the host and worker threads (including spurious wakeups), each dispatched pipeline index is executed exactly once, wait returns only after all have finished, and the dispatcher can then be reused; dispatching while busy is reported as an error.", "quantifier": "all schedules, all thread and job counts, all histories of dispatch/wait", "why_tests_cant": "All interleavings of a concurrent protocol.", "anchors": ["src/util/pipelines/pipelines_thread.cc:parallel_execute,pipeline_mgr,thread_dispatch,thread_wait"]}
{"id": "C37", "title": "Dispatcher never hangs", "statement": "From every reachable state a dispatch/wait pair can run to completion; with --dispatch_to_host set to any allowed value wait eventually returns.", "quantifier": "all schedules and command line values", "why_tests_cant": "Liveness over all schedules and configurations.", "anchors": ["src/util/pipelines/pipelines_thread.cc:thread_boot,thread_dispatch,thread_wait"]}
{"id": "C38", "title": "Checkpoint and restore round-trip", "statement": "Restoring a checkpoint yields objects with the same contents, strings, symbols and object graph (pointers mapped to the restored copies of the same objects), for every object population; the stream is consumed exactly.", "quantifier": "all object graphs, contents and registration histories", "why_tests_cant": "Structural induction over unbounded graphs.", "anchors": ["src/util/checkpt/checkpt.cc"]}
{"id": "C39", "title": "Object ids are unique, stable and never reused for live objects", "statement": "Registering and unregistering objects in any order keeps ids of live objects distinct and unchanged; looking up an id or a pointer returns the right object or reports absence; double registration is reported; the service can be halted exactly if every registered object has been unregistered.", "quantifier": "all histories of register/unregister/checkpoint/restore", "why_tests_cant": "Unbounded histories.", "anchors": ["src/util/checkpt/checkpt.cc:register_object,unregister_object,object_id,object_ptr"]}
{"id": "C40", "title": "Incompatible checkpoint is rejected", "statement": "A checkpoint whose header, world size, rank or pipeline count differs from the running configuration is rejected with an error before any state is used.", "quantifier": "all streams and configurations", "why_tests_cant": "All byte streams.", "anchors": ["src/util/checkpt/checkpt.cc:restore_objects", "src/util/pipelines/pipelines_thread.cc:79-92", "src/sf_interface/accumulator_array.cc:31-62"]}
{"id": "C41", "title": "Uniform random numbers stay in their documented interval", "statement": "The integer-to-floating conversions of the generator return values in the documented open/closed interval for every raw integer, never NaN, and hit each endpoint exactly when documented.", "quantifier": "all 2^32 / 2^64 raw generator outputs", "why_tests_cant": "2^64 inputs.", "anchors": ["src/util/rng/rng.h", "src/util/rng/rng_private.h:conv_*"]}
{"id": "C42", "title": "Raw generator stream is block-buffered without loss", "statement": "A sequence of draws of mixed integer widths consumes generator blocks without reading past the buffer, without skipping whole blocks, and refills exactly when needed.", "quantifier": "all sequences of draws of all types", "why_tests_cant": "Unbounded histories.", "anchors": ["src/util/rng/rng_private.h:RNG_NEXT"]}
{"id": "C43", "title": "Random permutation and shuffle always give a permutation; permutation draws are exactly uniform", "statement": "randperm returns a permutation of 0..n-1 and shuffle a rearrangement of its input for every generator output; in randperm each admissible index has exactly the same number of raw preimages.", "quantifier": "all n, all raw generator outputs", "why_tests_cant": "All raw streams.", "anchors": ["src/util/rng/rng.cc:randperm,shuffle"]}
{"id": "C44", "title": "Generator seeds are distinct across ranks, threads and pools", "statement": "The seeds assigned to the local generators of all ranks, the synchronous generators and different user seeds are pairwise distinct; synchronous generators get the same seed on every rank.", "quantifier": "all world sizes, pool sizes, user seeds in the documented range", "why_tests_cant": "All combinations of ranks and seeds.", "anchors": ["src/util/rng/rng_pool.cc:seed_rng_pool"]}
{"id": "C45", "title": "Seed adjustment always reaches the full-period class", "statement": "After seeding, the generator state satisfies the period certification parity check, whatever the seed.", "quantifier": "all 128-bit leading state words / all seeds", "why_tests_cant": "2^128 states.", "anchors": ["src/util/rng/rng.cc:adjust_rng"]}
{"id": "C46", "title": "Aligned allocation is aligned, in bounds and freeable", "statement": "The pointer returned by the aligned allocator is a multiple of the alignment, the requested bytes lie inside the underlying block, and freeing recovers exactly the pointer that the system allocator returned.", "quantifier": "all sizes, alignments (powers of two) and system addresses", "why_tests_cant": "All addresses.", "anchors": ["src/util/util_base.cc:util_malloc_aligned,util_free_aligned", "src/util/util_base.h:PAD,POW2_CEIL,ALIGN_PTR"]}
{"id": "C47", "title": "Command line options are stripped completely and in order", "statement": "strip_cmdline removes every occurrence of its key together with the value that follows it, returns the last given value or the default (for a flag without value: the number of occurrences), and leaves the other arguments unchanged in order.", "quantifier": "all argument vectors", "why_tests_cant": "Unbounded argument vectors.", "anchors": ["src/util/util_base.cc:strip_cmdline*"]}
{"id": "C48", "title": "Byte swapping is an involution", "statement": "Swapping the bytes of a value twice restores it, swapping reverses the byte order, for 2, 4 and 8 byte values.", "quantifier": "all values", "why_tests_cant": "2^64 values.", "anchors": ["src/util/swap.h"]}
{"id": "C49", "title": "Output variable selection reports exactly the selected variables", "statement": "The bit field used to select dump variables answers membership, mask queries and counts consistently: after set(mask) every bit of mask is reported as set, after clear(mask) none is, and the count equals the number of selected variables.", "quantifier": "all 32-bit masks and bit indices", "why_tests_cant": "2^32 masks.", "anchors": ["src/util/bitfield.h", "src/vpic/dump.cc:field_dump,hydro_dump"]}
{"id": "C50", "title": "Turnstile limits concurrency and cannot deadlock", "statement": "At most n_turnstiles ranks are inside a turnstile section at the same time, every rank eventually gets in, and messages match between ranks.", "quantifier": "all world sizes, turnstile counts, schedules", "why_tests_cant": "All schedules and process counts.", "anchors": ["src/util/mp/mp.h:BEGIN_TURNSTILE,END_TURNSTILE"]}
{"id": "C51", "title": "Message buffers never shrink and always fit the request", "statement": "After sizing a send/receive buffer the capacity is at least the request, previous contents capacity is not reduced, and requests on an invalid port are rejected.", "quantifier": "all request histories", "why_tests_cant": "Unbounded histories.", "anchors": ["src/util/mp/DMPPolicy.h:mp_size_recv_buffer,mp_size_send_buffer"]}
{"id": "C52", "title": "Species, material, and boundary ids are dense, unique and look up correctly", "statement": "Any sequence of append operations yields ids 0..n-1 (boundary handlers -3,-4,...) each used once; duplicate names are rejected; lookup by id or name returns the object appended under it and nothing otherwise.", "quantifier": "all append histories", "why_tests_cant": "Unbounded histories.", "anchors": ["src/species_advance/species_advance.cc:append_species", "src/material/material.cc:append_material", "src/boundary/boundary.cc:append_particle_bc"]}
{"id": "C53", "title": "Binary collision pair selection stays inside the cell", "statement": "For every random draw, both partners selected by the binary collision operator are particles of the voxel being processed.", "quantifier": "all particle counts per voxel, all raw random numbers", "why_tests_cant": "2^32 draws times all occupancy counts.", "anchors": ["src/collision/pipeline/binary_pipeline.cc:60-121"]}
{"id": "C54", "title": "Takizuka-Abe pairing collides every particle the right number of times", "statement": "In every voxel: within one species each particle collides once (or the first three twice when the count is odd, none if alone); between species each particle of the larger group collides once and each of the smaller group floor or ceil of the ratio; the pre-shuffle is a permutation and no index leaves the voxel.", "quantifier": "all occupancy counts and random draws", "why_tests_cant": "All counts.", "anchors": ["src/collision/pipeline/takizuka_abe_pipeline.cc:80-216"]}
{"id": "C55", "title": "Collisions conserve momentum and energy", "statement": "For equal-weight pairs the Takizuka-Abe, hard-sphere and large-angle Coulomb kernels conserve total momentum and (non-relativistic) kinetic energy of the pair (exact arithmetic, no regularisation epsilon).", "quantifier": "all momenta, masses, scattering parameters and directions", "why_tests_cant": "Identity over a continuum.", "anchors": ["src/collision/pipeline/takizuka_abe_pipeline.cc:takizuka_abe_collision", "src/collision/hard_sphere.cc:COMPUTE_MOMENTUM_TRANSFER", "src/collision/large_angle_coulomb.cc:COMPUTE_MOMENTUM_TRANSFER"]}
{"id": "C56", "title": "Collision operators touch each voxel from one pipeline only", "statement": "Striping voxels over pipelines visits every interior voxel in exactly one pipeline, so no two pipelines update the same particle.", "quantifier": "all mesh sizes and pipeline counts", "why_tests_cant": "All sizes.", "anchors": ["src/collision/pipeline/binary_pipeline.cc:46-51", "src/collision/pipeline/takizuka_abe_pipeline.cc:107-111"]}
{"id": "C57", "title": "Weighted collisions update the lighter particle always and both when equal", "statement": "When two computational particles of different weight collide, the one of least weight is always updated, the heavier only by chance, and both are updated when weights are equal.", "quantifier": "all weights and random numbers", "why_tests_cant": "Continuum of weights.", "anchors": ["src/collision/pipeline/binary_pipeline.cc:142-152"]}
{"id": "C58", "title": "Injected particles land in the right cell of exactly one rank", "statement": "A particle injected at a global position inside the simulation box is stored by exactly one rank, in a valid interior cell with in-cell offsets in [-1,1] that reproduce the position (exact arithmetic); positions outside are ignored.", "quantifier": "all positions, decompositions and mesh sizes", "why_tests_cant": "Continuum of positions, all ranks at once.", "anchors": ["src/vpic/misc.cc:inject_particle", "src/grid/partition.cc"]}
{"id": "C59", "title": "Injection respects particle and mover storage", "statement": "Injecting particles (with or without aging) never writes past the particle or mover storage and reports when no room is left.", "quantifier": "all species fill levels and injection histories", "why_tests_cant": "All fill levels.", "anchors": ["src/vpic/misc.cc:39-97", "src/emitter/child_langmuir.cc:emit_child_langmuir"]}
{"id": "C60", "title": "Emitter emits equal-weight particles that balance the wall charge", "statement": "All particles emitted from one face in one step carry the same weight computed from the local field, and each emission leaves an equal and opposite bound charge.", "quantifier": "all fields, faces, numbers of particles per face", "why_tests_cant": "All histories of the emission loop.", "anchors": ["src/emitter/child_langmuir.cc:EMIT_PARTICLES"]}
{"id": "C61", "title": "Strided dumps write the boundary and every stride-th cell", "statement": "A field/hydro dump with strides that divide the mesh writes exactly (nx/sx+2)(ny/sy+2)(nz/sz+2) records in the declared layout, containing the ghost boundary and every stride-th interior cell; with stride one in a direction that direction is written in full.", "quantifier": "all mesh sizes and strides", "why_tests_cant": "All sizes and strides.", "anchors": ["src/vpic/dump.cc:field_dump,hydro_dump"]}
{"id": "C62", "title": "Particle dump writes every particle once and leaves the simulation untouched", "statement": "dump_particles writes each particle exactly once in order, in chunks, centred in time, and the in-memory particle list, count and capacity are unchanged afterwards.", "quantifier": "all particle counts", "why_tests_cant": "All counts around chunk boundaries.", "anchors": ["src/vpic/dump.cc:dump_particles"]}
{"id": "C63", "title": "Time step bookkeeping", "statement": "advance() performs a step and returns true exactly while step < num_step (or num_step <= 0), increases the step by one per call, and runs interval tasks exactly on multiples of their interval and never for non-positive intervals.", "quantifier": "all step counts, intervals and restart points", "why_tests_cant": "Unbounded runs.", "anchors": ["src/vpic/advance.cc:advance"]}
{"id": "C64", "title": "Local energies are independent of the number of pipelines", "statement": "energy_p sums each particle exactly once whatever the number of pipelines and is non-negative for non-negative weights and masses.", "quantifier": "all particle lists and pipeline counts", "why_tests_cant": "All sizes.", "anchors": ["src/species_advance/standard/pipeline/energy_p_pipeline.cc"]}
{"id": "C65", "title": "Generator follows the published recursion on every platform", "statement": "The in-place block update of the generator produces the successive values of the SFMT linear recursion, and the vectorised and the portable implementation of the mixing function give the same values for all inputs; the indices into the tables of the normal generators are always inside of the tables.", "quantifier": "all states, all parameter sets, all raw numbers", "why_tests_cant": "2^11213 states; in-place updates read already updated elements.", "anchors": ["src/util/rng/rng_private.h:SFMT,rng_next_block", "src/util/rng/rng.cc:frandn,drandn"]}
{"id": "C66", "title": "Synchronising the bound charge removes the divergence error", "statement": "After compute_rhob, a following compute_div_e_err reports a zero error at every node that is not on a conducting wall, whatever the fields and the free charge were.", "quantifier": "all fields, charges, materials, mesh sizes, pipeline counts, schedules", "why_tests_cant": "All field configurations.", "anchors": ["src/field_advance/standard/pipeline/compute_rhob_pipeline.cc", "src/field_advance/standard/pipeline/compute_div_e_err_pipeline.cc"]}
{"id": "C67", "title": "Single-material kernels agree with the general ones", "statement": "When the whole mesh is made of one material, the specialised kernels the field array then selects (advance, curl, divergence error, bound charge, cleaning, energy) compute the same values as the general ones.", "quantifier": "all field values, all mesh positions, all material constants", "why_tests_cant": "The specialised kernels use precomputed coefficients; equality has to hold for all values.", "anchors": ["src/field_advance/standard/sfa.cc:new_standard_field_array", "src/field_advance/standard/pipeline/vacuum_advance_e_pipeline.h"]}
{"id": "C68", "title": "Boundary handlers absorb and reflux as documented", "statement": "The absorbing tally handler counts every particle that hits it once under its species, deposits exactly that particle's charge and injects nothing. The Maxwellian reflux handler injects exactly one particle of the same species and weight at the point of impact, moving away from the face, and gives it the displacement that uses up the time the incident particle had left.", "quantifier": "all particles, faces, temperatures, random numbers and handler states", "why_tests_cant": "Six faces, continuous random draws and any number of impacts.", "anchors": ["src/boundary/absorb_tally.cc:interact_absorb_tally", "src/boundary/maxwellian_reflux.cc:interact_maxwellian_reflux"]}
{"id": "C69", "title": "A whole time step satisfies the continuity equation on the whole machine", "statement": "On a periodic box distributed over any number of ranks, after the accumulators are cleared, all species pushed by all pipelines, the accumulators reduced, all particle exchange rounds run with no particle left in flight, and the currents unloaded and synchronised: at every node of every rank the change of the synchronised free charge density over the step, divided by the time step, plus the discrete divergence of the synchronised current density, is zero.", "quantifier": "all decompositions, mesh sizes, particle populations and displacements, pipeline counts, schedules and message orders", "why_tests_cant": "The charge of a particle that crosses several ranks in one step is deposited piecewise by different pipelines, ranks and rounds; only the sum over all of them balances.", "anchors": ["src/vpic/advance.cc:vpic_simulation::advance", "src/species_advance/standard/pipeline/advance_p_pipeline.cc", "src/boundary/boundary_p.cc", "src/sf_interface/pipeline/reduce_accumulators_pipeline.cc", "src/sf_interface/pipeline/unload_accumulator_pipeline.cc", "src/field_advance/standard/remote.cc:synchronize_jf,synchronize_rho"]}
{"id": "C70", "title": "Three exchanges place every particle", "statement": "If the time step is at most one cell at the speed of light along each axis, then after the push and num_comm_round = 3 calls of boundary_p no particle is on its way any more: the mover lists of all species on all ranks are empty and every particle that is still in the domain is inside an interior cell of its rank. On a periodic box the number of particles of each species is unchanged.", "quantifier": "all decompositions, particle momenta, fields and positions, pipeline counts and schedules, boundary handlers that do not send particles back in", "why_tests_cant": "A particle may cross up to three faces in a step, each between different ranks, and the order of crossings depends on its exact position.", "anchors": ["src/vpic/vpic.cc:num_comm_round", "src/vpic/advance.cc:vpic_simulation::advance", "src/boundary/boundary_p.cc:boundary_p", "src/species_advance/standard/move_p.cc:move_p"]}
{"id": "C71", "title": "The fields do not depend on how the box is cut into ranks", "statement": "On a periodic box, running the same sequence of field operations (advance B, compute the curl, advance E, compute the divergence error of E) from the same initial fields on the same global mesh of cells and materials gives the same value of every field at every place of the mesh, for any two decompositions into ranks.", "quantifier": "all mesh sizes, decompositions, material maps, initial fields and sequences of operations", "why_tests_cant": "The set of decompositions is unbounded; every plane next to a cut is computed from ghosts another rank has sent.", "anchors": ["src/field_advance/standard/advance_b.cc", "src/field_advance/standard/advance_e.cc", "src/field_advance/standard/compute_curl_b.cc", "src/field_advance/standard/compute_div_e_err.cc", "src/field_advance/standard/remote.cc"]}
{"id": "C72", "title": "Gauss's law is kept over any number of steps", "statement": "On a periodic box of insulating materials, the error of Gauss's law the program reports at a node (clear_rhof, accumulate_rho_p, synchronize_rho, compute_div_e_err) is the same before and after any number of time steps, with sorting and momentum-only collisions between them: a run that starts consistent stays consistent without divergence cleaning.", "quantifier": "all decompositions, thread counts and schedules, particle populations, fields and numbers of steps", "why_tests_cant": "It is an invariant of an unbounded history which every phase of the step on every rank has to keep.", "anchors": ["src/vpic/advance.cc:vpic_simulation::advance", "src/field_advance/standard/compute_div_e_err.cc", "src/field_advance/standard/advance_e.cc"]}
{"id": "C73", "title": "Absorbing walls let waves out", "statement": "The tangential magnetic field the program keeps behind an absorbing field wall follows, from one advance of E to the next, the centred discretisation of the outgoing one-way wave equation at the documented speed of 1.03527618 c, on all six kinds of wall; a wave moving out of the box is thus not reflected by a sign or index error at any of them.", "quantifier": "all field values, mesh sizes, time steps and wall orientations", "why_tests_cant": "Six orientations and two components each; a wrong sign on one of them only appears as a weak reflection.", "anchors": ["src/field_advance/standard/local.cc:local_ghost_tang_b"]}
{"id": "C74", "title": "Energy balance of the field solver", "statement": "On a periodic box of insulating materials over any number of ranks and without artificial damping, the change over a step of the discrete field energy (summed over all ranks, with its leap-frog correction) is exactly minus the work done by the current on the mean of the old and new electric field.", "quantifier": "all fields, currents, material maps, decompositions and mesh sizes", "why_tests_cant": "It is a summation by parts over the whole machine; every plane between ranks contributes.", "anchors": ["src/field_advance/standard/pipeline/advance_e_pipeline.cc", "src/field_advance/standard/pipeline/advance_b_pipeline.cc", "src/vpic/advance.cc:vpic_simulation::advance"]}
{"id": "C75", "title": "Below the Courant length the field solver is stable", "statement": "courant_length returns the largest step (as a length) for which the sum of (step/cell)^2 over the axes with more than one cell is at most one. With c dt equal to a fraction f < 1 of it, no current, and no material in which light is faster than in vacuum, the field energy of the whole machine never exceeds 1/(1-f^2) times its initial value, over any number of steps.", "quantifier": "all initial fields, box sizes, decompositions and numbers of steps", "why_tests_cant": "Stability is a statement about unbounded runs and all initial fields.", "anchors": ["src/vpic/vpic.h:courant_length", "src/field_advance/standard/pipeline/advance_e_pipeline.cc", "src/field_advance/standard/pipeline/advance_b_pipeline.cc"]}
{"id": "C76", "title": "Materials are turned into exact update coefficients", "statement": "With the coefficients computed for a material, one advance of E gives the exact solution after a time step of Ampere's law with Ohm's current for a constant source, along each axis, for insulators and conductors; for passive materials the coefficients never amplify; the divergence of E counts exactly where no conductivity is; the table has the coefficients of the material with the given id at every id in use; each warning is printed exactly when its condition holds.", "quantifier": "all material constants, time steps, fields and sources, all lists of materials", "why_tests_cant": "Continuous families of materials; exactness is a statement about solutions of a differential equation.", "anchors": ["src/field_advance/standard/sfa.cc:create_sfa_params", "src/material/material.cc"]}
{"id": "C77", "title": "Energy balance and stability with conductors", "statement": "On a periodic box of any materials over any number of ranks and without artificial damping, the change over a step of the field energy is exactly minus the work of the free currents minus the heat of Ohm's currents, and the heat is never negative for passive materials. Without free currents the energy stays below a fixed multiple of the initial one over any number of steps.", "quantifier": "all fields, currents, material maps, conductivities, decompositions and mesh sizes, numbers of steps", "why_tests_cant": "A statement about all fields and unbounded runs.", "anchors": ["src/field_advance/standard/pipeline/advance_e_pipeline.cc", "src/field_advance/standard/sfa.cc:create_sfa_params"]}
{"id": "C78", "title": "No Courant warning means stable", "statement": "A periodic box filled with one passive material, isotropic or not: if the program prints no Courant warning for the material, the energy of the fields without free currents stays below 1/(1-cg2) times the initial one for ever, cg2 being the estimate the program computes.", "quantifier": "all permittivities, permeabilities and conductivities, mesh sizes, decompositions, initial fields, numbers of steps", "why_tests_cant": "The estimate takes minima over products of different axes; that it is safe for every anisotropic material and every field is not evident.", "anchors": ["src/field_advance/standard/sfa.cc:create_sfa_params"]}
{"id": "C79", "title": "Vector builds push particles exactly like the scalar build", "statement": "Built for 4, 8 or 16 vector lanes, advance_p does what the scalar build does: for the same particles, fields and movers, every interleaving of the vector pipelines ends with the same particles, accumulated currents, mover list and number of unprocessed particles as some interleaving of the scalar pipelines. In particular charge is conserved and the mover list is ordered.", "quantifier": "all lane counts, pipeline counts, interleavings, particle populations, fields and meshes; particles not exactly on the upper face of their cell without displacement along that axis", "why_tests_cant": "Lanes mix particles of different cells through transpositions; a wrong lane or offset shows up only for some cell combinations.", "anchors": ["src/species_advance/standard/pipeline/advance_p_pipeline_v4.cc", "src/species_advance/standard/pipeline/advance_p_pipeline_v8.cc", "src/species_advance/standard/pipeline/advance_p_pipeline_v16.cc", "src/species_advance/standard/pipeline/move_outbnd_v4.inc", "src/util/v4/v4_portable.h", "src/util/v8/v8_portable.h", "src/util/v16/v16_portable.h"]}
{"id": "C80", "title": "The vector mover moves particles exactly like the scalar one", "statement": "The vector version of move_p gives, for every particle and every remaining displacement, the same final place and momentum, the same deposited currents and the same answer (still in use or not) as the scalar version.", "quantifier": "all particles, displacements, neighbour tables", "why_tests_cant": "The two versions treat a zero displacement differently, which matters only for particles exactly on a face.", "anchors": ["src/species_advance/standard/move_p.cc:move_p", "src/util/v4/v4_portable.h:copysign"]}
{"id": "C81", "title": "Vector builds advance the fields exactly like the scalar build", "statement": "Built for 4, 8 or 16 vector lanes, advance_b, advance_e, vacuum_advance_e, compute_curl_b, vacuum_compute_curl_b and clean_div_b leave exactly the fields the scalar build leaves, whatever the schedules, the numbers of pipelines and the rounding of the work distribution in the two builds.", "quantifier": "all lane counts, pipeline counts, interleavings, fields, material maps, boundary codes, incoming messages and mesh sizes", "why_tests_cant": "A block mixes voxels of different rows and planes; whether blocks never overlap and no voxel is left out depends on mesh size, lane count and distribution.", "anchors": ["src/field_advance/standard/pipeline/advance_b_pipeline_v4.cc", "src/field_advance/standard/pipeline/advance_e_pipeline_v8.cc", "src/field_advance/standard/pipeline/vacuum_advance_e_pipeline_v16.cc", "src/field_advance/standard/pipeline/compute_curl_b_pipeline_v4.cc", "src/field_advance/standard/pipeline/vacuum_compute_curl_b_pipeline_v4.cc", "src/field_advance/standard/pipeline/clean_div_b_pipeline_v4.cc", "src/util/v4/v4_portable.h"]}
{"id": "C82", "title": "A whole run keeps Gauss's law exactly", "statement": "Whatever fields an input deck sets up, even fields on which the processes disagree: after initialize and any number of calls of advance, with any settings of cleaning and synchronisation, the error of Gauss's law the program would report is zero at every node of every process, every divergence error of E it printed is zero, and every desynchronisation error it printed after the first check is zero.", "quantifier": "all initial fields and particles inside the box, decompositions, thread counts and schedules, settings, numbers of steps", "why_tests_cant": "A statement about runs of any length, all schedules and all initial states.", "anchors": ["src/vpic/initialize.cc:initialize", "src/vpic/advance.cc:advance", "src/field_advance/standard/pipeline/compute_rhob_pipeline.cc", "src/field_advance/standard/pipeline/compute_curl_b_pipeline.cc", "src/field_advance/standard/remote.cc:synchronize_tang_e_norm_b"]}
{"id": "C83", "title": "The divergence error of B a run prints never grows", "statement": "The rms divergence errors of B printed by initialize and by all later calls of advance form a non-increasing sequence, whatever the settings of cleaning and synchronisation, the number of rounds and the number of steps.", "quantifier": "all initial fields and particles inside a periodic box, decompositions, thread counts and schedules, settings, numbers of steps", "why_tests_cant": "A statement about runs of any length from any initial field.", "anchors": ["src/vpic/initialize.cc:initialize", "src/vpic/advance.cc:advance", "src/field_advance/standard/pipeline/clean_div_b_pipeline.cc", "src/field_advance/standard/pipeline/compute_rms_div_b_err_pipeline.cc"]}
{"id": "C84", "title": "Vector builds centre, measure and accumulate particles exactly like the scalar build", "statement": "Built for 4, 8 or 16 vector lanes, center_p and uncenter_p leave the same particles, energy_p returns the same kinetic energy and accumulate_hydro_p is defined whenever the scalar one is and leaves moments the scalar one can leave, for every species, field and schedule.", "quantifier": "all lane counts, pipeline counts, interleavings, particle populations, fields and meshes", "why_tests_cant": "Lanes mix particles of different cells; groups of moments are transposed and added at different offsets in the three builds, and every lane shares cells with other lanes.", "anchors": ["src/species_advance/standard/pipeline/center_p_pipeline_v4.cc", "src/species_advance/standard/pipeline/uncenter_p_pipeline_v8.cc", "src/species_advance/standard/pipeline/energy_p_pipeline_v16.cc", "src/species_advance/standard/pipeline/hydro_p_pipeline_v4.cc", "src/species_advance/standard/pipeline/hydro_p_pipeline_v8.cc", "src/species_advance/standard/pipeline/hydro_p_pipeline_v16.cc"]}
{"id": "C85", "title": "Vector builds reduce private arrays and load interpolators exactly like the scalar build", "statement": "Built for 4, 8 or 16 vector lanes, reducing the accumulators or the moments leaves exactly the numbers the scalar build leaves, no element is left out although the calling thread takes no stragglers, whatever the mesh, the number of pipelines and the schedule; and load_interpolator_array stores the same coefficients.", "quantifier": "all lane counts, mesh sizes, numbers of pipelines and private copies, interleavings, array contents", "why_tests_cant": "The vector pipelines rely on the number of elements being a multiple of the vector length for every mesh; a violation would lose current silently.", "anchors": ["src/sf_interface/pipeline/reduce_array_pipeline_v4.cc", "src/sf_interface/pipeline/reduce_array_pipeline_v8.cc", "src/sf_interface/pipeline/reduce_array_pipeline_v16.cc", "src/sf_interface/pipeline/interpolator_array_pipeline.cc:load_interpolator_pipeline_v4", "src/util/pipelines/pipelines_exec_pth.h"]}
{"id": "C86", "title": "Pushing particles does not depend on the number of threads", "statement": "As long as no mover is ignored, advance_p with any two numbers of pipelines and under any two schedules leaves the same particles in the same order, the same list of movers in the same order and adds the same current to the accumulators after reduction. No mover is ignored if the species has room for np + 24*n_pipeline movers.", "quantifier": "all species, fields, meshes, pairs of pipeline counts, schedules, contents of unused storage", "why_tests_cant": "Pipelines interleave arbitrarily, share the mover array and cut the particles at different places; a unit test sees one schedule of one count. Equality is that of exact arithmetic: the order in which currents are added changes the last bits of a float.", "anchors": ["src/species_advance/standard/pipeline/advance_p_pipeline.cc:advance_p_pipeline_scalar", "src/species_advance/standard/pipeline/advance_p_pipeline.cc:advance_p_pipeline", "src/util/pipelines/pipelines.h:DISTRIBUTE"]}
{"id": "C87", "title": "A whole run does not depend on the number of threads", "statement": "Two runs of the same input that differ only in the number of pipelines and in the schedules, from initialize through any number of calls of advance, with sorting, cleaning, synchronisation, particles crossing faces of any kind and particles removed at the end of the step, have the same particles in the same order, the same fields, the same interpolators and print the same errors after every step, as long as neither prints the warning about ignored movers. The same holds from any later step on.", "quantifier": "all inputs without collisions and emitters, decompositions, boundary handlers that keep their contract, pairs of pipeline counts, schedules, numbers of steps", "why_tests_cant": "A relation between two runs of any length under all schedules.", "anchors": ["src/vpic/initialize.cc:initialize", "src/vpic/advance.cc:advance", "src/species_advance/standard/pipeline/sort_p_pipeline.cc", "src/species_advance/standard/pipeline/advance_p_pipeline.cc", "src/boundary/boundary_p.cc:boundary_p", "src/sf_interface/pipeline/unload_accumulator_pipeline.cc"]}
{"id": "C88", "title": "A restarted run continues exactly like the uninterrupted one", "statement": "Write checkpoint files after any number of steps, restore them with new processes at other addresses and advance on: the particles and their order, the fields, the interpolators and the printed errors after every later step are those of the run that was not interrupted, whatever the schedules and whatever the new processes find in memory that was not saved, as long as neither prints the warning about ignored movers.", "quantifier": "all inputs without collisions and emitters, decompositions, boundary handlers whose state is a function of the saved bytes, checkpoint steps, addresses, contents of unsaved memory, schedules, numbers of further steps", "why_tests_cant": "Only the used part of the particle and mover storage is saved and a static buffer size of the particle exchange is lost; that no later step looks at any of it is a statement about all continuations.", "anchors": ["src/species_advance/species_advance.cc:checkpt_species", "src/field_advance/standard/sfa.cc:checkpt_standard_field_array", "src/sf_interface/interpolator_array.cc:checkpt_interpolator_array", "src/sf_interface/accumulator_array.cc:checkpt_accumulator_array", "src/boundary/boundary_p.cc:boundary_p", "deck/main.cc:main", "src/vpic/advance.cc:advance"]}
{"id": "C89", "title": "Unary collisions and the Langevin bath treat every particle once and exactly", "statement": "When it is due, a unary collision model calls the collision function exactly once or not at all for each particle of the species: never if the collision rate is zero, always if the probability is at least one; the warning states the number of particles whose probability exceeded one. The Langevin operator replaces each momentum component by decay*u + drive*z with a normal number z of its own and changes nothing else; with independent normal numbers n applications have exactly the distribution of one of n times the duration, and the normal distribution of variance kT/(m c) is left unchanged. Both do nothing when they are not due, and neither depends on the schedule of the pipelines.", "quantifier": "all collision models, generators, particle lists, pipeline counts, schedules, intervals and steps; all temperatures, frequencies, masses, numbers of applications", "why_tests_cant": "The distribution after any number of applications is a statement about all sequences of random numbers; which generator treats which particle depends on the cut and not on the schedule only if the pipelines never share anything.", "anchors": ["src/collision/pipeline/unary_pipeline.cc:unary_pipeline_scalar", "src/collision/pipeline/unary_pipeline.cc:apply_unary_collision_model_pipeline", "src/collision/pipeline/langevin_pipeline.cc:langevin_pipeline_scalar", "src/collision/pipeline/langevin_pipeline.cc:apply_langevin_pipeline", "src/collision/langevin.cc:langevin", "src/collision/unary.cc:unary_collision_model", "src/collision/collision.h"]}
{"id": "C90", "title": "Normal and exponential random numbers have their distributions", "statement": "With a generator of independent uniform raw numbers, frandn and drandn return standard normal numbers, the loop ends with probability one, numbers drawn one after the other (also by the fill functions) are independent although each of them consumes a random number of raw numbers, and the generator left behind is independent of them; frande and drande return exponential numbers of mean one. The tables the functions use are those of the method: heights on the bell curve, strips of equal area and the tail in the right place.", "quantifier": "all events about any number of consecutive results and the generator afterwards, all numbers of strips; every entry of the tables in the code", "why_tests_cant": "A sampling test of any size sees moments to a few digits; a wrong tail, a wrong sign at one strip or a dependence between numbers shows in rare events only.", "anchors": ["src/util/rng/rng.cc:frandn", "src/util/rng/rng.cc:drandn", "src/util/rng/rng.cc:frandn_fill", "src/util/rng/rng.cc:frande", "src/util/rng/frandn_table.cc", "src/util/rng/drandn_table.cc"]}
{"id": "C91", "title": "Moving particles does not depend on how the box is cut into domains", "statement": "In a periodic box, sorting, pushing, exchanging and removing particles on all ranks does what a single mesh without ranks would do: every particle of the box is pushed once in the field of its cell, walks from cell to cell across the boundaries of ranks and around the box, and leaves in every cell it visits the current of its streak there. For any two ways of cutting the same box the particles afterwards are the same and so are the currents of each cell.", "quantifier": "all periodic boxes, pairs of decompositions, numbers of ranks and pipelines, schedules, fields, particles inside their domains, time steps of at most one cell at the speed of light, at least three rounds of exchange", "why_tests_cant": "A relation between runs on different numbers of ranks; which particles cross which rank boundary in which round, and in which message, depends on everything.", "anchors": ["src/vpic/advance.cc:advance", "src/species_advance/standard/pipeline/advance_p_pipeline.cc", "src/species_advance/standard/move_p.cc:move_p", "src/boundary/boundary_p.cc:boundary_p", "src/grid/partition.cc:partition_periodic_box"]}
{"id": "C92", "title": "A whole run does not depend on how the box is cut into domains", "statement": "A run in a periodic box, from initialize through any number of calls of advance with cleaning and synchronisation, is a run of one particle-in-cell code on a single periodic mesh, written without ranks, ghosts, messages, movers and threads. So two runs of the same box that differ in the number of ranks, the decomposition, the number of pipelines, the schedules and the sort intervals have the same particles, the same E, B, damped curl and bound charge at every place of the box, and print the same errors after every step. Each rank must have at least two cells along each axis that is cut (without this it is false, C71).", "quantifier": "all periodic boxes and materials, pairs of decompositions, numbers of ranks and pipelines, schedules, sort intervals, fields on which the ranks agree, particles, numbers of steps, cleaning and synchronisation intervals; no collisions and no emitters, no warning about ignored movers", "why_tests_cant": "A relation between two runs of any length on different machines.", "anchors": ["src/vpic/initialize.cc:initialize", "src/vpic/advance.cc:advance", "src/sf_interface/pipeline/interpolator_array_pipeline.cc", "src/sf_interface/pipeline/unload_accumulator_pipeline.cc", "src/field_advance/standard/remote.cc", "src/field_advance/standard/pipeline/advance_e_pipeline.cc", "src/field_advance/standard/pipeline/clean_div_e_pipeline.cc", "src/field_advance/standard/pipeline/compute_rms_div_e_err_pipeline.cc", "src/boundary/boundary_p.cc:boundary_p", "src/grid/partition.cc:partition_periodic_box"]}
{"id": "C93", "title": "Materials and fields set on a region of points", "statement": "set_point_region_material gives the material to exactly those edges, faces, nodes and cells of the mesh, ghosts included, whose own position is inside the region; set_point_region_field sets exactly those components of E and cB whose own position is inside the region, to the equations there (B times the speed of light). Everything else is left as it was, and leave_unchanged changes nothing.", "quantifier": "all meshes, geometries, regions, equations, materials and previous contents", "why_tests_cant": "The position of each of the eight kinds of places on a staggered mesh is a matter of half cells; a wrong offset for one kind shows only for regions whose surface passes between the two positions.", "anchors": ["deck/wrapper.h:set_point_region_material", "deck/wrapper.h:set_point_region_field", "src/material/material.cc:get_material_id"]}
{"id": "C94", "title": "Materials set on a mesh-mapped region", "statement": "set_region_material with materials for interior and surface gives the interior material to exactly those edges, faces, nodes and cells that touch cells of the region only, the surface material to those that touch cells of the region and others, and leaves the rest as it was. A cell belongs to the region if its centre does.", "quantifier": "all meshes, geometries, regions, materials and previous contents", "why_tests_cant": "256 patterns of cells around a node, for each of the places of every mesh.", "anchors": ["deck/wrapper.h:set_region_material"]}
{"id": "C95", "title": "leave_unchanged leaves the interior or the surface of a region as it was", "statement": "set_region_material with leave_unchanged for the interior does not change the material of any place in the interior of the region, and with leave_unchanged for the surface of any place at its surface or outside.", "quantifier": "all meshes, geometries, regions, materials and previous contents", "why_tests_cant": "An interaction of two options, visible only for regions set on top of others.", "anchors": ["deck/wrapper.h:set_region_material", "deck/wrapper.h:leave_unchanged"]}
{"id": "C96", "title": "Fields set on a mesh-mapped region", "statement": "set_region_field sets exactly those components of E and cB that touch a cell of the region, each to the value of its equation at the position of the component (B times the speed of light).", "quantifier": "all meshes, geometries, regions, equations and previous fields", "why_tests_cant": "Fields that vary slowly or along one axis only hide a shift of the position.", "anchors": ["deck/wrapper.h:set_region_field"]}
{"id": "C97", "title": "Regions do not depend on how the box is cut into domains", "statement": "In a periodic box with a periodic region (and periodic equations) every place of the global mesh gets the same material and the same fields whatever the number of ranks and the decomposition, and on every rank that has it, also as a ghost.", "quantifier": "all periodic boxes, pairs of decompositions, ranks, places, regions, equations, previous contents on which they agree", "why_tests_cant": "A relation between ranks and between runs on different numbers of ranks; the position is computed from different origins on each rank.", "anchors": ["deck/wrapper.h:set_region_material", "deck/wrapper.h:set_region_field", "deck/wrapper.h:set_point_region_material", "deck/wrapper.h:set_point_region_field", "src/grid/partition.cc:partition_periodic_box"]}
{"id": "C98", "title": "Particle boundary conditions set on a region", "statement": "set_region_bc gives each face of each cell one boundary condition: the volume condition between two cells of the region, the interior condition on the inner side of its surface, the exterior condition on the outer side; conditions left unchanged and all other faces keep their entry of the neighbour table.", "quantifier": "all meshes, geometries, regions, triples of boundary conditions and previous tables", "why_tests_cant": "Six faces of every cell and all patterns of a region; a face seen from the wrong side is noticed only by particles that come from there.", "anchors": ["deck/wrapper.h:set_region_bc", "src/boundary/boundary.cc:get_particle_bc_id"]}
{"id": "C99", "title": "No particle crosses the surface of a region with boundary conditions on both sides", "statement": "After set_region_bc with conditions for the interior and the exterior side, no particle ever crosses the surface of the region: every call of move_p ends (or stops at a face) in a cell on the side of the surface where it began. In a periodic box with a periodic region this holds on every rank of every decomposition, and the cell that a particle enters on another rank is on the same side.", "quantifier": "all meshes, regions, boundary conditions, particles, displacements of any length, numbers of crossings; all periodic boxes and decompositions", "why_tests_cant": "A path may cross any number of faces in one step, and be reflected at any of them.", "anchors": ["deck/wrapper.h:set_region_bc", "src/species_advance/standard/move_p.cc:move_p", "src/grid/partition.cc:partition_periodic_box"]}
{"id": "C100", "title": "Emitters of a region have exactly the cells or faces they should", "statement": "define_volume_emitter lists each cell of the region exactly once and nothing else; define_surface_emitter lists exactly once each face of a cell outside the region behind which the region is, and nothing else. The storage, sized by a first pass, is filled exactly.", "quantifier": "all meshes, geometries and regions", "why_tests_cant": "A second loop fills storage that a first one sized; they must agree for every region.", "anchors": ["deck/wrapper.h:define_volume_emitter", "deck/wrapper.h:define_surface_emitter", "src/emitter/emitter.cc:size_emitter", "src/emitter/emitter.h:COMPONENT_ID"]}
{"id": "C101", "title": "A run does not depend on the place in a periodic box", "statement": "Moving everything (fields, particles, materials) by any number of cells along any axes of a periodic box, around the box where need be, moves the whole run: the same errors are printed, and at the end particles and fields are those of the original run moved by as much; also if the decomposition, the number of pipelines and the sort intervals differ.", "quantifier": "all periodic boxes, shifts, pairs of decompositions, numbers of pipelines, interleavings, sort intervals, initial fields, particles and materials, numbers of steps", "why_tests_cant": "A relation between runs whose particles cross domain boundaries at different times; places near a boundary of a domain or of the box take different code than others.", "anchors": ["src/vpic/advance.cc:vpic_simulation::advance", "src/vpic/initialize.cc:vpic_simulation::initialize", "src/grid/partition.cc:partition_periodic_box"]}
{"id": "C102", "title": "A periodic box keeps its particles", "statement": "In a periodic box without collisions and emitters, over initialize and any number of steps, no particle is lost, made or given another weight: the number of particles of each species over all ranks, and their weights each as often as before, stay the same.", "quantifier": "all periodic boxes, decompositions, numbers of pipelines, interleavings, sort intervals, initial particles, numbers of steps", "why_tests_cant": "Particles are lost at the junction of pushing, sorting, packing, receiving and injecting, for particular histories only.", "anchors": ["src/vpic/advance.cc:vpic_simulation::advance", "src/boundary/boundary_p.cc:boundary_p", "src/species_advance/standard/advance_p.cc:advance_p"]}
{"id": "C103", "title": "Particles act by their charge only", "statement": "In a periodic box the fields, the printed errors and the motion of all particles depend on the particles only through the total charge (charge times weight) at each place and momentum for each ratio of charge to mass. So tracers (particles without weight or charge) disturb nothing and move like charged ones, the order of the species does not matter, a particle may be split into several lighter ones, and species of the same ratio may be merged.", "quantifier": "all periodic boxes, pairs of runs with any species, weights, charges, decompositions, pipelines, interleavings, sort intervals; all numbers of steps", "why_tests_cant": "A relation between two whole runs with different numbers of particles and different storage.", "anchors": ["src/vpic/advance.cc:vpic_simulation::advance", "src/species_advance/standard/advance_p.cc:advance_p", "src/species_advance/standard/rho_p.cc:accumulate_rho_p"]}
{"id": "C104", "title": "Tracers fly exactly in a uniform field", "statement": "In a periodic box with a uniform magnetic field (also none), no electric field and no charged particles, over any number of steps the fields stay exactly as they are, all printed errors are zero, and every particle keeps its weight and energy; without field it keeps its momentum and moves straight on, each step by its velocity times the time step, around the box where need be.", "quantifier": "all periodic boxes, decompositions, pipelines, interleavings, sort intervals, uniform fields, tracers, cleaning and sorting intervals, numbers of steps", "why_tests_cant": "Errors at the boundaries of cells, domains and the box accumulate over many steps and for particular directions only.", "anchors": ["src/vpic/advance.cc:vpic_simulation::advance", "src/species_advance/standard/advance_p.cc:advance_p", "src/species_advance/standard/move_p.cc:move_p"]}
{"id": "C105", "title": "Serial, thread and OpenMP pipelines are interchangeable", "statement": "Whatever OpenMP does when it runs the pipelines of a kernel (how many threads it uses, which pipelines it gives to which thread, in which order), and also what the serial dispatcher does, is one of the interleavings that the thread dispatcher may produce: each pipeline runs exactly once, with the same arguments, and the host finishes its own part before the macro ends. So all results proved for every interleaving hold for all three, and they all give the same result when pipelines touch separate data.", "quantifier": "all numbers of pipelines and threads, all shares of pipelines, all interleavings, all pipeline bodies", "why_tests_cant": "OpenMP schedules are chosen by the implementation at run time; a test sees the few that the machine at hand makes.", "anchors": ["src/util/pipelines/pipelines_exec_omp.h:EXEC_PIPELINES", "src/util/pipelines/pipelines_exec_pth.h:EXEC_PIPELINES", "src/util/pipelines/pipelines_serial.cc:serial_dispatch"]}
{"id": "C106", "title": "Opposite charges, opposite fields, same motion", "statement": "If the charges of all species and all fields at the start of a run in a periodic box are given the opposite sign, the particles move exactly as before, the fields are at all times the opposite ones, and the printed errors are the same.", "quantifier": "all periodic boxes, decompositions, pipelines, interleavings, sort intervals, species, particles, fields, materials, numbers of steps", "why_tests_cant": "A relation between two whole runs; a sign error shows only for particular fields and materials.", "anchors": ["src/vpic/advance.cc:vpic_simulation::advance", "src/species_advance/standard/advance_p.cc:advance_p", "src/field_advance/standard/advance_e.cc:advance_e"]}
{"id": "C107", "title": "No axis is special", "statement": "If the axes of a periodic box (its sizes, spacings, materials, fields and particles) are exchanged by any permutation before a run, the run gives the same particles and fields with the axes exchanged (the magnetic field with the sign of the permutation) and prints the same errors. In particular the order in which the mover crosses faces that a particle reaches at the same time does not matter.", "quantifier": "all permutations of the axes, periodic boxes, decompositions, pipelines, interleavings, sort intervals, particles (also those that pass exactly through edges and corners of cells), fields, materials, numbers of steps", "why_tests_cant": "A relation between two whole runs; ties in the mover occur on a set of measure zero that random tests never hit.", "anchors": ["src/vpic/advance.cc:vpic_simulation::advance", "src/species_advance/standard/move_p.cc:move_p", "src/species_advance/standard/rho_p.cc:accumulate_rho_p"]}
{"id": "C108", "title": "Left and right are alike", "statement": "If a periodic box (its materials, fields and particles) is mirrored along any of its axes before a run, the run gives the mirror images of the particles and fields (the magnetic field as an axial vector) and prints the same errors. In particular low and high faces, edges and corners of cells, ranks and the box are treated alike.", "quantifier": "all sets of mirrored axes, periodic boxes, decompositions, pipelines, interleavings, sort intervals, particles, fields, materials, numbers of steps", "why_tests_cant": "A relation between two whole runs; fields lie at different places of their cells, so a shift by one cell at one face or one missing sign shows only in particular components.", "anchors": ["src/vpic/advance.cc:vpic_simulation::advance", "src/species_advance/standard/move_p.cc:move_p", "src/field_advance/standard/advance_e.cc:advance_e", "src/sf_interface/interpolator_array.cc:load_interpolator_array"]}
{"id": "C109", "title": "Binary dumps say what they hold", "statement": "A reader that knows the format, but not the machine that wrote the file, gets back from each binary dump (grid, fields, moments, particles, with or without selection and strides) its header (type, step below 2^31, rank, sizes, spacings, constants, species), the size and the dimensions of each array and every element. A file that ends early, wherever the writer was stopped, or has anything after its end is not taken for a complete dump. The data of fields and moments start at byte 123, as the global header announces. For a file in bands the reader must know the number of selected variables. A step of 2^31 or more is not found in the file.", "quantifier": "all meshes, parameters, contents, both byte orders, every point at which the writing may stop", "why_tests_cant": "Formats agree for every combination of sizes, selections and byte orders, and every prefix of every file must be refused.", "anchors": ["src/vpic/dumpmacros.h:WRITE_HEADER_V0", "src/vpic/dumpmacros.h:WRITE_ARRAY_HEADER", "src/vpic/dump.cc:dump_grid", "src/vpic/dump.cc:dump_particles", "src/vpic/dump.cc:field_dump", "src/vpic/dump.cc:hydro_dump"]}
{"id": "C110", "title": "Dumps of different ranks and steps are different files", "statement": "The name of a dump determines the base name, the rank and, with a tag or in the directories for each step, the step; so ranks and steps never overwrite each other's files, and the file lies in the directory made for it. Names of at most 224 characters (directory and base together at most 245 for the dumps with directories) fit in the arrays they are printed to.", "quantifier": "all base names and directories, steps and ranks", "why_tests_cant": "A collision needs particular pairs of numbers whose printed forms run together.", "anchors": ["src/vpic/dump.cc:dump_fields", "src/vpic/dump.cc:dump_hydro", "src/vpic/dump.cc:dump_particles", "src/vpic/dump.cc:dump_grid", "src/vpic/dump.cc:field_dump", "src/vpic/dump.cc:hydro_dump"]}
{"id": "C111", "title": "The global header announces what the files in bands hold", "statement": "global_header lists, in order, the quantities that were selected, and the bands of the files are the components of the listed quantities one after the other, with as many elements and bytes as listed; create_field_list and create_hydro_list give the same names separated by commas.", "quantifier": "all selections of variables", "why_tests_cant": "2^32 selections; the list is made from one table, the files from another.", "anchors": ["src/vpic/dump.cc:global_header", "src/vpic/dump.cc:create_field_list", "src/vpic/dump.cc:create_hydro_list", "src/vpic/vpic.h:field_indeces", "src/vpic/vpic.h:hydro_indeces"]}
{"id": "C112", "title": "Text dumps can be read back", "statement": "After any series of calls of dump_energies for a file, its table has one row for each call since the one that last started the file, with the step, the six energies of the field and one of each species, under labels in this order. The file of dump_materials gives back name, id and the nine constants of each material, that of dump_species name, id, charge and mass of each species, although it is one line.", "quantifier": "all series of calls, lists of species and materials with names without spaces and line breaks, all finite values", "why_tests_cant": "The history of a file is a sequence of calls of any length; names and numbers could run together.", "anchors": ["src/vpic/dump.cc:dump_energies", "src/vpic/dump.cc:dump_species", "src/vpic/dump.cc:dump_materials"]}
{"id": "C113", "title": "A modify file sets exactly the parameters it names", "statement": "When a run is continued with a modify file, num_step and the dump intervals get the value of the last line that starts with their name and goes on with a decimal number (a negative interval becomes zero), the quota the last number after its name, all others keep their values; numbers as they are printed are read back; every file with numbers in the range of int is read. Lines must have at most 125 characters: the rest of a longer one counts as a line.", "quantifier": "all texts of the file and all values of the parameters before", "why_tests_cant": "The texts are unbounded; the outcome depends on prefixes, white space, signs, order and length of lines.", "anchors": ["src/vpic/misc.cc:vpic_simulation::modify"]}
{"id": "C114", "title": "All implementations of the vector classes move the same words", "statement": "Each load_*_tr of the classes for four, eight and sixteen lanes gives vectors with word j of row l in lane l of vector j, each store_*_tr writes this and nothing else, transpose, swap, the loads, stores, copies and exchanges of whole vectors move exactly the words their names say; so the versions for SSE, AVX, AVX2, AVX-512 and NEON do what the portable versions do for every contents of memory and all addresses that are aligned as the version needs.", "quantifier": "all contents of memory, all aligned addresses, for stores rows that do not overlap, for exchanges vectors that are the same or do not overlap", "why_tests_cant": "A wrong shuffle constant moves a word only in one version, which is compiled only for one processor; addresses are unbounded.", "anchors": ["src/util/v4/v4_sse.h", "src/util/v4/v4_avx.h", "src/util/v4/v4_avx2.h", "src/util/v4/v4_neon.h", "src/util/v4/v4_portable.h", "src/util/v8/v8_avx.h", "src/util/v8/v8_avx2.h", "src/util/v8/v8_portable.h", "src/util/v16/v16_avx512.h", "src/util/v16/v16_portable.h"]}
{"id": "C115", "title": "The vector pipelines access memory as aligned as the instructions need", "statement": "With arrays that start at a multiple of 128 bytes, each vector load and store of the pipelines for fields, particles and materials is at an address that is a multiple of what the instruction requires, so it is defined and gives what the portable version gives.", "quantifier": "all starts of the arrays that are multiples of 128 bytes, all voxels, all particle numbers", "why_tests_cant": "Whether a misaligned access faults depends on the instruction the compiler chooses and on the numbers of the voxels.", "anchors": ["src/field_advance/standard/pipeline/advance_b_pipeline_v16.cc", "src/field_advance/standard/pipeline/advance_e_pipeline_v16.cc", "src/species_advance/standard/pipeline/energy_p_pipeline_v16.cc", "src/species_advance/standard/pipeline/advance_p_pipeline_v16.cc", "src/util/v16/v16_avx512.h"]}
{"id": "C116", "title": "The operators of the vector classes do in each lane what C does with one number", "statement": "In all versions of the classes for four, eight and sixteen lanes, the operators on integers and on numbers, comparisons, logical operators, merge, czero, notczero, any, all, abs, fabs, sqrt, copysign, the bit functions and increment, decrement and scale give in each lane exactly what the operator or function of C gives for the words of that lane, comparisons as masks of all bits or none; fma, fms, fnms are a*b+c, a*b-c, c-a*b; rsqrt and rcp are inverse root and inverse with an error of second order in that of the estimate of the processor; trilinear gives the weights of the eight corners. So a pipeline gives the same for every version, up to rounding.", "quantifier": "all words of 32 bits in all lanes (also infinities, zeros with sign and what is not a number), all arithmetics of single precision, all contents of memory", "why_tests_cant": "There are 2^256 pairs of vectors of four words for each operator and ten versions, most of which do not compile on one machine; minus zero and NaN differ only there.", "anchors": ["src/util/v4/v4_sse.h", "src/util/v4/v4_avx.h", "src/util/v4/v4_avx2.h", "src/util/v4/v4_neon.h", "src/util/v4/v4_portable.h", "src/util/v8/v8_avx.h", "src/util/v8/v8_avx2.h", "src/util/v8/v8_portable.h", "src/util/v16/v16_avx512.h", "src/util/v16/v16_portable.h"]}
{"id": "C117", "title": "The Poynting flux is the mean flux through the left side", "statement": "poynting_flux(e0) returns on all ranks the mean, over all domains at the left side of the box and all lines of nodes (y, z) from 2 to ny, nz, of the component of E x B along x through the second plane of nodes, with the magnetic field averaged over the planes beside it, divided by (cvac e0)^2; for uniform fields it is exactly their flux.", "quantifier": "all fields, numbers of cells of at least two across, numbers of domains along all axes, speeds of light and reference fields other than zero", "why_tests_cant": "The value of memory that was not written differs from run to run; a test on one domain never reads it.", "anchors": ["src/vpic/diagnostics.cc:poynting_flux", "src/vpic/diagnostics.cc:RANK_TO_INDEX"]}
{"id": "C118", "title": "Collision operators change momenta only, voxel by voxel, and conserve what they should", "statement": "apply_collision_op_list does nothing for an operator whose interval does not divide the step. Otherwise an operator sorts its two species if they were not sorted in this step and then, for every result of the random number generators, leaves all other species alone, keeps in every voxel the particles of each species with their positions and weights, and conserves the momentum of the two species in every voxel whose particles have the same weight, and their kinetic energy up to the regularisation (exactly without it, otherwise it does not grow). The sorted state is kept, so that any further operators of the list work on valid tables; over the whole list momentum and energy of all species of a voxel are conserved.", "quantifier": "all particles, species, operators and lists of operators, intervals, steps, meshes, numbers of pipelines, and everything the random number generators may return", "why_tests_cant": "The number of possible sequences of random numbers is unbounded; a pair that crosses voxels or a particle updated on one side only changes a sum of millions of terms by less than its noise.", "anchors": ["src/collision/collision.cc:apply_collision_op_list", "src/collision/takizuka_abe.cc:apply_takizuka_abe", "src/collision/binary.cc:apply_binary_collision_model", "src/collision/pipeline/takizuka_abe_pipeline.cc:takizuka_abe_pipeline_scalar", "src/collision/pipeline/binary_pipeline.cc:binary_pipeline_scalar", "src/collision/hard_sphere.cc", "src/collision/large_angle_coulomb.cc", "src/species_advance/standard/pipeline/sort_p_pipeline.cc:sort_p_pipeline", "src/species_advance/standard/sort_p.cc:sort_p"]}
{"id": "C119", "title": "Collisions between particles of unequal weight conserve momentum and energy on average", "statement": "When the collided particles have different weights, the number of the generator that decides whether the heavier one is scattered makes the average right: for the Takizuka-Abe operator, with all other random numbers arbitrary but fixed, the average over independent uniform values of these numbers of the momentum of both species in a voxel after the operator is the momentum before, and the same for kinetic energy (exactly without regularisation, otherwise it does not grow). For the hard sphere and large angle Coulomb models the same holds for each collision.", "quantifier": "all particles with weights that are not negative, all masses, all other random numbers, all meshes, numbers of pipelines and voxels", "why_tests_cant": "It is a statement about an integral over as many variables as there are collisions; a bias of the probability is hidden by the noise of any sample.", "anchors": ["src/collision/pipeline/takizuka_abe_pipeline.cc:takizuka_abe_collision", "src/collision/pipeline/binary_pipeline.cc:binary_pipeline_scalar", "src/collision/hard_sphere.cc", "src/collision/large_angle_coulomb.cc"]}
{"id": "C120", "title": "The timing table lists what was done and the time it took", "statement": "The table printed every status_interval steps has, in a fixed order, a row for each operation that was done since the start (or restore), with the number of calls and the time since the previous table and since the start, the time per call, and its share of the time of all operations rounded to a whole percent, so that the shares add up to 100 up to half a percent per row. The number of calls is the number of times the time steps did the operation.", "quantifier": "all histories of timed blocks and tables of any length, all clock readings, all configurations of the steps", "why_tests_cant": "The totals depend on the whole history; with the clock of a test no block takes exactly no time.", "anchors": ["src/util/profile/profile.cc:update_profile", "src/util/profile/profile.h:TIC", "src/util/profile/profile.h:TOC", "src/vpic/advance.cc:vpic_simulation::advance", "src/species_advance/species_advance.cc:append_species"]}
{"id": "C121", "title": "Uniform random numbers lie inside of their interval", "statement": "uniform(rng, low, high) returns a number strictly between low and high, as documented, in double precision with all roundings.", "quantifier": "all numbers low and high of double precision, all raw numbers of the generator (exponents in range)", "why_tests_cant": "The ends occur for single values out of 2^52; there are 2^180 triples of bounds and raw numbers.", "anchors": ["src/vpic/vpic.h:uniform", "src/util/rng/rng_private.h:conv_drand"]}
{"id": "C122", "title": "Every particle of the box is injected once, into the right cell, with all roundings", "statement": "When all ranks call inject_particle with a position in the box, exactly one of them injects the particle; it is put into one of the cells of that rank, with an offset in the closed cell, and cell and offset give the position up to the precision of the stored offset. This holds in floating point arithmetic, including positions on or next to the faces between domains.", "quantifier": "all boxes, decompositions, positions of double precision, numbers of cells below 2^31, roundings", "why_tests_cant": "Only positions within a few units of a face can go wrong, about one in 10^8 or fewer of random positions.", "anchors": ["src/vpic/misc.cc:inject_particle", "src/grid/partition.cc:partition_periodic_box", "src/grid/grid.h:grid"]}
{"id": "C123", "title": "Moving particles stay in their voxels, with all roundings", "statement": "A particle with offsets in the closed voxel that moves by no more than a voxel in each direction still has offsets in the closed voxel, in float arithmetic, after each part of its movement: exactly on the face it crossed (also when it is handed over to a boundary handler or another rank), and anywhere in the closed voxel at the end of the movement. With the Courant condition no particle moves farther than that, whatever its momentum.", "quantifier": "all offsets and displacements of single precision, boundaries, roundings", "why_tests_cant": "Only particles that come within a few units in the last place of an edge of the voxel can go wrong.", "anchors": ["src/species_advance/standard/move_p.cc:move_p", "src/species_advance/standard/pipeline/advance_p_pipeline.cc:advance_p_pipeline_scalar"]}
{"id": "C124", "title": "The current of a moving particle, with all roundings", "statement": "What a piece of a particle's movement inside a voxel adds to each of the twelve current accumulators of the voxel is, in float arithmetic, the charge times the displacement times the share of the accumulator averaged along the piece, up to 2^-18 of that product and half a unit in the last place of what the accumulator held; the four accumulators of a direction together get four times the charge times the displacement, up to 2^-17 of it, so that no charge is lost by cancellation near the faces.", "quantifier": "all charges, displacements and midpoints in the closed voxel, contents of the accumulators, roundings", "why_tests_cant": "The error depends on every bit of the operands; tests compare a few sums with a tolerance.", "anchors": ["src/species_advance/standard/pipeline/advance_p_pipeline.cc:ACCUMULATE_J", "src/species_advance/standard/move_p.cc:accumulate_j"]}
{"id": "C125", "title": "The charge density of particles, with all roundings", "statement": "When a species is added to the charge density of the nodes in float arithmetic, every particle gives to each of the eight nodes of its voxel and to no other its charge times the trilinear share, up to 2^-18 of the charge and the rounding of the node's sum, with the sign of the charge and exactly nothing to the nodes opposite to a face it is on; the eight shares add up to eight times the charge up to 2^-15 of it, and the density of a node grows with the particles.", "quantifier": "all particles in the closed voxel, charges, densities before, numbers of particles, roundings", "why_tests_cant": "The error depends on every bit of the operands and on the order and number of the particles.", "anchors": ["src/species_advance/standard/rho_p.cc:accumulate_rho_p"]}
{"id": "C126", "title": "The divergence of the magnetic field, with all roundings", "statement": "Advancing the magnetic field in float arithmetic subtracts the curl of the electric field from it up to a bound proportional to the largest field, and changes the flux out of each voxel by no more than six such bounds; over any number of half steps, with any electric fields, the flux drifts at most in proportion to their number. Uniform electric fields do not change a bit of it.", "quantifier": "all fields, ratios of step and spacing up to 1, numbers of half steps, roundings", "why_tests_cant": "Errors add up over the whole run; tests follow a few steps.", "anchors": ["src/field_advance/standard/pipeline/advance_b_pipeline.h:UPDATE_CBX", "src/field_advance/standard/pipeline/advance_b_pipeline.cc:advance_b_pipeline"]}
{"id": "C127", "title": "The magnetic rotation of momenta, with all roundings", "statement": "In float arithmetic the pusher turns the momentum of a particle about the magnetic field: every component is within 2^-16 of the largest component of the momentum of the exact rotation, the square of the momentum changes by at most 2^-12 of itself in a step and by at most such a factor in each of any number of steps, and the tangent of half of the angle is, up to sixteen roundings, the first three terms of the series at charge times half a step per mass times field over energy, with the sign of the charge. A momentum along the field is not changed at all.", "quantifier": "all momenta, magnetic fields however strong, charges, numbers of steps, roundings", "why_tests_cant": "The error depends on every bit of the operands; a length that grows in rare cases heats the plasma only over long runs.", "anchors": ["src/species_advance/standard/pipeline/advance_p_pipeline.cc:advance_p_pipeline_scalar"]}
{"id": "C128", "title": "The fields a particle sees and its momentum after a step, with all roundings", "statement": "In float arithmetic a particle sees the electric field of the edges of its voxel, constant along and linear across them, up to 2^-18 of the largest, and the magnetic field of the faces, linear along their normals, up to 2^-20 of the largest; uniform fields it sees without error wherever it is. Its momentum after a step is the old one with half of the electric kick, the magnetic rotation, and the other half, up to 2^-13 of the largest component of momentum and kick; without fields it stays the same in every bit over any number of steps.", "quantifier": "all offsets in the closed voxel, fields, momenta, charges, roundings", "why_tests_cant": "The error depends on every bit of the operands and on the position in the voxel.", "anchors": ["src/sf_interface/pipeline/interpolator_array_pipeline.cc:load_interpolator_pipeline_scalar", "src/species_advance/standard/pipeline/advance_p_pipeline.cc:advance_p_pipeline_scalar"]}
{"id": "C129", "title": "Gauss's law in a run, with all roundings", "statement": "Advancing the electric field in float arithmetic keeps the decayed part of it and adds the driven part of the curl of the magnetic field, less damping and current, up to a bound proportional to the largest field and current; in vacuum the flux of the electric field out of the dual voxel around each node changes by what flows out as current up to six such bounds, and over any number of steps, with any magnetic fields and currents, the difference grows at most in proportion to their number. Uniform magnetic fields without current do not change a bit of the electric field in vacuum.", "quantifier": "all fields, currents, materials with decay and drive up to 1, ratios of step and spacing up to 1, numbers of steps, roundings", "why_tests_cant": "Errors add up over the whole run; tests follow a few steps.", "anchors": ["src/field_advance/standard/pipeline/vacuum_advance_e_pipeline.h:UPDATE_EX", "src/field_advance/standard/pipeline/vacuum_advance_e_pipeline.cc:vacuum_advance_e_pipeline_scalar"]}
{"id": "C130", "title": "The kinetic energy diagnostic, with all roundings", "statement": "The kinetic energy of a particle, computed in float arithmetic, is mass times weight times (gamma - 1) with a relative error below 2^-20 however slow or fast the particle is; the energy of a species is the sum over its particles up to that and one double-precision rounding for each particle of the longest pipeline and each pipeline, and is never negative.", "quantifier": "all momenta, masses, weights, numbers of particles, numbers of pipelines and distributions over them, roundings", "why_tests_cant": "Cancellation shows only for slow particles, and the error of the sum grows with the number of particles.", "anchors": ["src/species_advance/standard/pipeline/energy_p_pipeline.cc:energy_p_pipeline_scalar"]}
{"id": "C131", "title": "The field energy diagnostic, with all roundings", "statement": "Each of the six energies of the fields in vacuum is the sum over the voxels of the weighted squares on its edges or faces, up to a relative error of five float roundings and one double-precision rounding for each voxel of the longest pipeline and each pipeline; none is ever negative.", "quantifier": "all fields, weights of materials, numbers of voxels, numbers of pipelines and distributions over them, roundings", "why_tests_cant": "The error of the sum grows with the number of voxels and depends on every bit of the fields.", "anchors": ["src/field_advance/standard/pipeline/vacuum_energy_f_pipeline.h:REDUCE_EN", "src/field_advance/standard/pipeline/vacuum_energy_f_pipeline.cc:vacuum_energy_f_pipeline"]}
{"id": "C132", "title": "The current of all particles on an edge, with all roundings and in any order", "statement": "After the accumulators of all pipelines are reduced and unloaded in float arithmetic, the current on an edge is the old one plus the scaled sum of everything the particles have deposited on it, up to n + 4(p/9 + 1) + 5 roundings of the sum of the absolute values, where n is the largest number of deposits in a slot and p the number of further arrays; runs that deposit the same in another order or with another number of pipelines differ by at most twice that.", "quantifier": "all deposits, orders of particles, numbers of particles and of pipelines, roundings", "why_tests_cant": "The order of the particles and the number of pipelines change the last bits; no set of runs shows the largest difference.", "anchors": ["src/sf_interface/pipeline/reduce_array_pipeline.cc:reduce_array_pipeline_scalar", "src/sf_interface/pipeline/unload_accumulator_pipeline.cc:unload_accumulator_pipeline_scalar"]}
{"id": "C133", "title": "The divergence diagnostics and their cleaning, with all roundings", "statement": "The reported divergence of the magnetic field is the true one up to four float roundings of the sum of the absolute values of its terms, and exactly 0 for a uniform field; the reported error of Gauss's law is the true one up to six, and exactly 0 in materials excluded from cleaning; a cleaning pass adds the scaled gradient of the reported error to the fields up to three roundings; where the reported divergence of the magnetic field is the same everywhere, any number of passes leave the magnetic field the same in every bit.", "quantifier": "all fields, charge densities, grid spacings, materials, numbers of passes, roundings", "why_tests_cant": "The differences of nearly equal fields depend on every bit of them.", "anchors": ["src/field_advance/standard/pipeline/compute_div_b_err_pipeline.cc:compute_div_b_err_pipeline_scalar", "src/field_advance/standard/pipeline/clean_div_b_pipeline.h:MARDER_CBX", "src/field_advance/standard/pipeline/vacuum_compute_div_e_err_pipeline.h:UPDATE_DERR_E", "src/field_advance/standard/pipeline/vacuum_clean_div_e_pipeline.h:MARDER_EX"]}
