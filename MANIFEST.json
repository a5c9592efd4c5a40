{
 "claims": [
  {
   "property": "C01",
   "status": "proved",
   "theorems": [
    "Verif.Distribute.distribute_exact",
    "Verif.Distribute.distribute_aligned",
    "Verif.Distribute.distribute_balanced",
    "Verif.Distribute.doubleRounding_accurate",
    "Verif.Distribute.fmaRounding_accurate"
   ],
   "note": "For every accurate rounding of the double products; IEEE double with and without fma is shown accurate."
  },
  {
   "property": "C02",
   "status": "proved",
   "theorems": [
    "Verif.Distribute.distribute_voxels_exact"
   ],
   "note": ""
  },
  {
   "property": "C03",
   "status": "proved",
   "theorems": [
    "Verif.Grid.voxel_bijective"
   ],
   "note": ""
  },
  {
   "property": "C04",
   "status": "proved",
   "theorems": [
    "Verif.Grid.neighbor_is_adjacent",
    "Verif.Grid.cellId_injective",
    "Verif.Grid.globalPos_injective",
    "Verif.Grid.neighbor_symmetric",
    "Verif.Grid.walled_neighbor"
   ],
   "note": "Periodic, absorbing and metal boxes."
  },
  {
   "property": "C05",
   "status": "proved",
   "theorems": [
    "Verif.Grid.rank_index_inverse",
    "Verif.Grid.ports_match",
    "Verif.Grid.walled_ports_match",
    "Verif.Grid.size_grid_ids"
   ],
   "note": "Periodic, absorbing and metal boxes."
  },
  {
   "property": "C06",
   "status": "proved",
   "theorems": [
    "Verif.SortP.sort_stable"
   ],
   "note": "Pipeline sort; every schedule, scratch contents and rounding, up to 256 pipelines (above that the code stops with an error: sort_fails_above_256)."
  },
  {
   "property": "C07",
   "status": "proved",
   "theorems": [
    "Verif.SortP.sort_partition",
    "Verif.SortP.sort_partition_end_untouched"
   ],
   "note": "All voxels except the last ghost one: the pipeline sort never writes the final table entry."
  },
  {
   "property": "C08",
   "status": "proved",
   "theorems": [
    "Verif.SortP.sort_deterministic",
    "Verif.SortP.stableSort_unique",
    "Verif.SortP.sort_agrees_with_legacy",
    "Verif.SortP.sort_stable"
   ],
   "note": ""
  },
  {
   "property": "C09",
   "status": "proved",
   "theorems": [
    "Verif.SortP.inplace_sort"
   ],
   "note": "Terminates within 2 np + nc + 2 iterations."
  },
  {
   "property": "C15",
   "status": "proved",
   "theorems": [
    "Verif.MoveP.move_p_trajectory",
    "Verif.MoveP.move_p_displacement",
    "Verif.MoveP.move_p_periodic_box"
   ],
   "note": "Exact arithmetic over any linearly ordered field; the loop terminates within n0+n1+n2+1 passes when |disp k| <= n k. Streak coordinates are in half cells, as in the code."
  },
  {
   "property": "C10",
   "status": "proved",
   "theorems": [
    "Verif.AdvanceP.advance_p_movers",
    "Verif.AdvanceP.advance_exists",
    "Verif.AdvanceP.courant_push_ok"
   ],
   "note": "Every interleaving of the pipelines' particle steps; every push assumed valid (inside of the arrays), which courant_push_ok discharges for a time step of at most one cell."
  },
  {
   "property": "C16",
   "status": "proved",
   "theorems": [
    "Verif.MoveP.move_p_conserves_charge",
    "Verif.MoveP.move_p_conserves_charge_node",
    "Verif.MoveP.periodic_box_conserves_charge",
    "Verif.AdvanceP.advance_p_conserves_charge",
    "Verif.AdvanceP.advance_p_periodic_box"
   ],
   "note": "For one move, and for advance_p over a whole species with any pipeline count. Nodes identified by a mesh joined to itself are added up; node by node when it is not."
  },
  {
   "property": "C17",
   "status": "proved",
   "theorems": [
    "Verif.AdvanceP.in_cell_push_is_segment_move"
   ],
   "note": ""
  },
  {
   "property": "C18",
   "status": "proved",
   "theorems": [
    "Verif.Boris.rotation_preserves_norm",
    "Verif.Boris.rotation_is_boris",
    "Verif.Boris.rotation_preserves_parallel",
    "Verif.Boris.pure_magnetic_field_does_no_work"
   ],
   "note": "rotate is shared by the models of advance_p, center_p and uncenter_p (and hydro_p). The square root is an arbitrary function."
  },
  {
   "property": "C19",
   "status": "proved",
   "theorems": [
    "Verif.Boris.center_uncenter_species",
    "Verif.Boris.uncenter_center",
    "Verif.Boris.center_uncenter"
   ],
   "note": "Whole species, every pipeline count and interleaving."
  },
  {
   "property": "C46",
   "status": "proved",
   "theorems": [
    "Verif.Util.malloc_aligned",
    "Verif.Util.malloc_aligned_rejects",
    "Verif.Util.pow2Ceil_spec"
   ],
   "note": "For every request whose padded size fits in size_t; above that the size wraps (malloc_aligned_wraps)."
  },
  {
   "property": "C47",
   "status": "proved",
   "theorems": [
    "Verif.Util.strip_cmdline_value",
    "Verif.Util.strip_cmdline_flag",
    "Verif.Util.options_rest",
    "Verif.Util.options_exists"
   ],
   "note": ""
  },
  {
   "property": "C48",
   "status": "proved",
   "theorems": [
    "Verif.Util.bswap16_spec",
    "Verif.Util.bswap32_spec",
    "Verif.Util.bswap64_spec",
    "Verif.Util.swap_structs"
   ],
   "note": ""
  },
  {
   "property": "C49",
   "status": "partial",
   "theorems": [
    "Verif.Util.bitfield_membership",
    "Verif.Util.bitfield_counts",
    "Verif.Util.bitfield_mask_query_partial",
    "Verif.Util.bitsset_wrong"
   ],
   "note": "The mask query reads the mask as a bit number, so that part is false of the code (bitsset_wrong); the rest is proved."
  },
  {
   "property": "C51",
   "status": "partial",
   "theorems": [
    "Verif.Util.size_buffer_partial",
    "Verif.Util.size_buffers_partial",
    "Verif.Util.size_buffer_rejects",
    "Verif.Util.size_buffer_off_by_one",
    "Verif.Util.size_buffer_overflow"
   ],
   "note": "False of the code for the port just behind the last one and for requests above 1636178017 bytes; proved for all others."
  },
  {
   "property": "C50",
   "status": "proved",
   "theorems": [
    "Verif.Turnstile.at_most_n_inside",
    "Verif.Turnstile.no_deadlock",
    "Verif.Turnstile.runs_are_finite",
    "Verif.Turnstile.every_rank_passes",
    "Verif.Turnstile.no_message_left"
   ],
   "note": "Any number of ranks and of turnstiles except 0 (zero_turnstiles_hang); sends may block or be buffered."
  },
  {
   "property": "C52",
   "status": "partial",
   "theorems": [
    "Verif.Registry.append_species_ids",
    "Verif.Registry.append_material_ids",
    "Verif.Registry.lookups",
    "Verif.Registry.append_bc_ids_partial",
    "Verif.Registry.append_bc_twice",
    "Verif.Registry.append_emitter_once",
    "Verif.Registry.append_cop_twice"
   ],
   "note": "Boundary handlers: appending the only handler a second time is accepted and makes the list circular (append_bc_twice); proved when handlers are distinct."
  },
  {
   "property": "C36",
   "status": "proved",
   "theorems": [
    "Verif.Dispatch.jobs_run_exactly_once",
    "Verif.Dispatch.jobs_run_at_most_once",
    "Verif.Dispatch.misuse_is_the_only_error",
    "Verif.Dispatch.halt_ends_workers"
   ],
   "note": "Any number of pipelines, zero or one job executed by the host (the default), spurious wakeups included, sequentially consistent memory."
  },
  {
   "property": "C37",
   "status": "partial",
   "theorems": [
    "Verif.Dispatch.calls_return",
    "Verif.Dispatch.completion_reachable",
    "Verif.Dispatch.fair_run_exists",
    "Verif.Dispatch.dispatch_to_host_hangs"
   ],
   "note": "Every call returns in every weakly fair execution for --dispatch_to_host 0 or 1; for larger values, which boot accepts, wait never returns (dispatch_to_host_hangs)."
  },
  {
   "property": "C41",
   "status": "proved",
   "theorems": [
    "Verif.Rng.frand_intervals",
    "Verif.Rng.drand_intervals",
    "Verif.Rng.int_intervals"
   ],
   "note": "For every floating format which represents the needed dyadic numbers exactly and any rounding otherwise."
  },
  {
   "property": "C42",
   "status": "proved",
   "theorems": [
    "Verif.Rng.draws_follow_stream"
   ],
   "note": ""
  },
  {
   "property": "C43",
   "status": "proved",
   "theorems": [
    "Verif.Rng.randperm_is_permutation",
    "Verif.Rng.randperm_uniform",
    "Verif.Rng.draw_preimages",
    "Verif.Rng.randperm_no_overflow",
    "Verif.Rng.shuffle_is_rearrangement",
    "Verif.Rng.shuffle_no_div_zero",
    "Verif.Rng.shuffle_two_biased"
   ],
   "note": "randperm: int arithmetic stays in range for up to 2^30 elements; at 2^31-1 a rejected draw overflows (randperm_overflow_example). shuffle gives a rearrangement but is not uniform (shuffle_two_biased)."
  },
  {
   "property": "C44",
   "status": "proved",
   "theorems": [
    "Verif.Rng.pool_seeds_distinct",
    "Verif.Rng.generators_start_differently",
    "Verif.Rng.sync_seed_same",
    "Verif.Rng.seedRng_injective"
   ],
   "note": "User seeds whose derived seeds are representable in an int."
  },
  {
   "property": "C45",
   "status": "proved",
   "theorems": [
    "Verif.Rng.adjust_certified",
    "Verif.Rng.adjust_certified_id",
    "Verif.Rng.adjust_minimal",
    "Verif.Rng.seeded_certified"
   ],
   "note": ""
  },
  {
   "property": "C65",
   "status": "proved",
   "theorems": [
    "Verif.Rng.sfmt_next_is_recursion",
    "Verif.Rng.sfmt_sse_eq_portable",
    "Verif.Rng.ziggurat_indices",
    "Verif.Rng.ziggurat_wraps"
   ],
   "note": ""
  },
  {
   "property": "C53",
   "status": "partial",
   "theorems": [
    "Verif.Collision.pairs_inside_partial",
    "Verif.Collision.select_safe_iff",
    "Verif.Collision.pair_outside",
    "Verif.Collision.selection_uniform"
   ],
   "note": "Proved for up to 65535 particles per voxel; false of the code from 65536 on (pair_outside): the rejection loop tests k==nk instead of k>=nk. select_safe_iff gives the exact condition."
  },
  {
   "property": "C54",
   "status": "proved",
   "theorems": [
    "Verif.Collision.ta_intra_counts",
    "Verif.Collision.ta_inter_counts",
    "Verif.Collision.ta_inter_empty",
    "Verif.Collision.ta_shuffle"
   ],
   "note": ""
  },
  {
   "property": "C55",
   "status": "proved",
   "theorems": [
    "Verif.Collision.hard_sphere_conserves",
    "Verif.Collision.large_angle_conserves",
    "Verif.Collision.takizuka_abe_conserves",
    "Verif.Collision.conserves_exact",
    "Verif.Collision.kernels_conserve_real"
   ],
   "note": "Exact arithmetic; with the regularisation FLT_MIN the energy loss is at most 3/2 mu FLT_MIN."
  },
  {
   "property": "C56",
   "status": "proved",
   "theorems": [
    "Verif.Collision.stripes_partition",
    "Verif.Collision.voxel_ranges_disjoint",
    "Verif.Collision.collisions_schedule_independent",
    "Verif.Distribute.unary_split_exact"
   ],
   "note": "Striped voxels (binary, Takizuka-Abe) and split particle ranges (unary, Langevin)."
  },
  {
   "property": "C57",
   "status": "proved",
   "theorems": [
    "Verif.Collision.lighter_updated",
    "Verif.Collision.ta_lighter_updated",
    "Verif.Collision.unselected_unchanged"
   ],
   "note": ""
  },
  {
   "property": "C63",
   "status": "proved",
   "theorems": [
    "Verif.Step.advance_result",
    "Verif.Step.sort_count",
    "Verif.Step.clean_e_count",
    "Verif.Step.clean_b_count",
    "Verif.Step.sync_status_count",
    "Verif.Step.push_once",
    "Verif.Step.step_order",
    "Verif.Step.leapfrog",
    "Verif.Step.main_loop",
    "Verif.Step.main_loop_late",
    "Verif.Step.main_loop_forever",
    "Verif.Step.restart_same",
    "Verif.Step.run_sort_count"
   ],
   "note": "Kernels are opaque tasks in a log; user hooks are assumed not to modify step, num_step and intervals."
  },
  {
   "property": "C64",
   "status": "proved",
   "theorems": [
    "Verif.EnergyP.energy_each_once",
    "Verif.EnergyP.energy_pipeline_independent",
    "Verif.EnergyP.energy_nonneg",
    "Verif.EnergyP.energy_zero_iff",
    "Verif.EnergyP.energyOne_eq",
    "Verif.EnergyP.energyOne_real"
   ],
   "note": "Exact arithmetic; local sum (before the MPI sum and the factor c^2)."
  },
  {
   "property": "C20",
   "status": "proved",
   "theorems": [
    "Verif.Deposit.rho_p_adds",
    "Verif.Deposit.rho_p_local",
    "Verif.Deposit.rho_p_corner",
    "Verif.Deposit.share_nonneg",
    "Verif.Deposit.rho_p_total",
    "Verif.Deposit.rho_p_moment",
    "Verif.Deposit.rho_p_order"
   ],
   "note": "Exact arithmetic."
  },
  {
   "property": "C21",
   "status": "proved",
   "theorems": [
    "Verif.Deposit.rhob_conserves"
   ],
   "note": "Exact arithmetic; all mesh sizes including one cell in a direction."
  },
  {
   "property": "C22",
   "status": "proved",
   "theorems": [
    "Verif.Hydro.hydro_adds",
    "Verif.Hydro.hydro_total",
    "Verif.Hydro.kinematics_spec",
    "Verif.Hydro.ke_is_gamma_minus_one"
   ],
   "note": "Exact arithmetic, any square root function, any interleaving of the pipelines."
  },
  {
   "property": "C34",
   "status": "partial",
   "theorems": [
    "Verif.SfInterface.reduce_sums",
    "Verif.SfInterface.reduce_accumulators_partial",
    "Verif.SfInterface.reduce_hydro_partial",
    "Verif.SfInterface.reduce_overflow",
    "Verif.SfInterface.reduce_hydro_overflow"
   ],
   "note": "Proved for every number of arrays and pipelines whose index arithmetic fits an int. Beyond, the code computes the index in int and overflows (reduce_hydro_overflow: 254^3 cells, 9 pipelines)."
  },
  {
   "property": "C35",
   "status": "proved",
   "theorems": [
    "Verif.SfInterface.clear_zeroes",
    "Verif.SfInterface.clear_accumulators",
    "Verif.SfInterface.clear_hydro"
   ],
   "note": ""
  },
  {
   "property": "C24",
   "status": "proved",
   "theorems": [
    "Verif.Field.advance_b_keeps_div_b",
    "Verif.Field.div_b_preserved",
    "Verif.Field.compute_div_b_agrees",
    "Verif.Field.advance_b_result",
    "Verif.Field.div_b_changes_at_symmetric_wall"
   ],
   "note": "Exact arithmetic; any schedule of the pipelines and any number of steps. Cells away from walls with the symmetric_fields code; next to those the code sets the normal component to zero after the update and creates a divergence (div_b_changes_at_symmetric_wall)."
  },
  {
   "property": "C25",
   "status": "proved",
   "theorems": [
    "Verif.Field.advance_e_div",
    "Verif.Field.advance_e_keeps_gauss",
    "Verif.Field.gauss_preserved"
   ],
   "note": "Exact arithmetic, undamped insulators, nodes off conducting walls, all mesh sizes; the curl uses ghost values of B that satisfy the exchange's contract."
  },
  {
   "property": "C26",
   "status": "proved",
   "theorems": [
    "Verif.Field.advance_b_result",
    "Verif.Field.edge_kernel_result",
    "Verif.Field.edge_kernel_is_step",
    "Verif.Field.compute_div_e_result",
    "Verif.Field.compute_rhob_result",
    "Verif.Field.clean_div_e_result",
    "Verif.Field.clean_div_b_result",
    "Verif.Field.cell_sweep_result",
    "Verif.Field.advance_b_runs",
    "Verif.Field.edge_kernel_runs",
    "Verif.Field.compute_div_e_runs",
    "Verif.Field.clean_div_e_runs",
    "Verif.Field.clean_div_b_runs"
   ],
   "note": "For every interleaving of the pipelines with the calling thread: each component that exists gets the value computed from the state at the start, everything else is unchanged. Runs exist for every mesh."
  },
  {
   "property": "C28",
   "status": "proved",
   "theorems": [
    "Verif.Field.rms_div_e_each_node_once",
    "Verif.Field.node_weights_add_up",
    "Verif.Field.rms_of_uniform_error",
    "Verif.Field.rms_div_b_each_cell_once"
   ],
   "note": "Local sums of one rank; exact arithmetic."
  },
  {
   "property": "C29",
   "status": "proved",
   "theorems": [
    "Verif.Field.energy_f_each_cell_once",
    "Verif.Field.energy_f_pipeline_independent",
    "Verif.Field.energy_f_nonneg",
    "Verif.Field.vacuum_energy_agrees"
   ],
   "note": "Local sums of one rank; exact arithmetic."
  },
  {
   "property": "C33",
   "status": "proved",
   "theorems": [
    "Verif.Field.unknown_code_is_an_error",
    "Verif.Field.tang_e_zero_on_conductor",
    "Verif.Field.norm_b_zero_on_symmetric",
    "Verif.Field.div_e_zero_on_walls",
    "Verif.Field.rhob_zero_on_conductor",
    "Verif.Field.rhof_at_walls",
    "Verif.Field.jf_at_walls",
    "Verif.Field.ghost_div_b",
    "Verif.Field.ghost_norm_e",
    "Verif.Field.ghost_tang_b"
   ],
   "note": "All sides, boundary codes and mesh sizes."
  },
  {
   "property": "C66",
   "status": "proved",
   "theorems": [
    "Verif.Field.compute_rhob_removes_error"
   ],
   "note": "Exact arithmetic; nodes off conducting and other walls whose adjust step changes the charge."
  },
  {
   "property": "C67",
   "status": "proved",
   "theorems": [
    "Verif.Field.vacuum_kernels_agree",
    "Verif.Field.vacuum_energy_agrees"
   ],
   "note": "Exact arithmetic, same value for every position."
  },
  {
   "property": "C27",
   "status": "proved",
   "theorems": [
    "Verif.Field.clean_div_b_contracts",
    "Verif.Field.clean_div_e_contracts",
    "Verif.Field.clean_div_b_keeps_clean",
    "Verif.Field.clean_div_e_keeps_clean",
    "Verif.Field.clean_passes_run",
    "Verif.Field.clean_e_passes_run"
   ],
   "note": "Periodic boxes over any number of ranks. Exact arithmetic. With zero error walls are allowed too. For E the contraction assumes that the ranks agree on the errors of shared nodes and on ghost materials."
  },
  {
   "property": "C30",
   "status": "proved",
   "theorems": [
    "Verif.Field.synchronize_jf_sums",
    "Verif.Field.synchronize_rho_sums",
    "Verif.Field.synchronize_hydro_sums",
    "Verif.Field.copies_agree_after_sum",
    "Verif.Field.copies_eq",
    "Verif.Field.mem_copies_self",
    "Verif.Field.synchronize_frame",
    "Verif.Field.synchronize_runs",
    "Verif.Field.periodic_world_cart",
    "Verif.Field.walled_world_cart"
   ],
   "note": "Exact arithmetic, any array of ranks (periodic or walled per axis), all mesh sizes, up to eight copies. The copies are specified through the coordinate in the global mesh."
  },
  {
   "property": "C31",
   "status": "proved",
   "theorems": [
    "Verif.Field.synchronize_tang_e_norm_b_means",
    "Verif.Field.copies_agree_after_mean",
    "Verif.Field.synchronize_error",
    "Verif.Field.error_ignores_damping_term",
    "Verif.Field.synchronize_runs"
   ],
   "note": "Exact arithmetic, any array of ranks. The damping term tca is averaged too but its disagreement is not measured (error_ignores_damping_term)."
  },
  {
   "property": "C32",
   "status": "proved",
   "theorems": [
    "Verif.Field.message_sizes",
    "Verif.Field.ghost_exchange",
    "Verif.Field.periodic_world_linked",
    "Verif.Field.walled_world_linked",
    "Verif.Field.same_place",
    "Verif.Field.sync_message_sizes",
    "Verif.Field.synchronize_runs",
    "Verif.Field.synchronize_jf_sums",
    "Verif.Field.synchronize_rho_sums",
    "Verif.Field.synchronize_hydro_sums",
    "Verif.Field.synchronize_tang_e_norm_b_means"
   ],
   "note": "All seven exchanges. Delivery follows MPI's matching of source and tag."
  },
  {
   "property": "C23",
   "status": "proved",
   "theorems": [
    "Verif.Interp.load_interpolator_result",
    "Verif.Interp.load_interpolator_runs",
    "Verif.Interp.interpolated_field",
    "Verif.Interp.interpolation_exact",
    "Verif.Interp.interpolation_continuous"
   ],
   "note": "Exact arithmetic, every interleaving of the pipelines, all mesh sizes and offsets."
  },
  {
   "property": "C11",
   "status": "proved",
   "theorems": [
    "Verif.Boundary.backfill_removes_named",
    "Verif.Boundary.backfill_completes"
   ],
   "note": "Strictly increasing mover lists, which advance_p and boundary_p produce (advance_p_movers, round_particles)."
  },
  {
   "property": "C12",
   "status": "proved",
   "theorems": [
    "Verif.Boundary.round_particles",
    "Verif.Boundary.waiting_fate",
    "Verif.Boundary.round_conserves",
    "Verif.Boundary.round_counts",
    "Verif.Boundary.arrival_position",
    "Verif.Boundary.periodic_joined",
    "Verif.Boundary.walled_joined"
   ],
   "note": "Exact arithmetic. Any number of ranks, any periodic or walled partition, any handlers that keep their contract. Message delivery follows the matching of source and tag."
  },
  {
   "property": "C13",
   "status": "proved",
   "theorems": [
    "Verif.Boundary.round_exists",
    "Verif.Boundary.resize_keeps",
    "Verif.Boundary.resize_fits",
    "Verif.Boundary.arrivals_length"
   ],
   "note": "Sizes up to what int holds are hypotheses: message of 16+48 n bytes, storage below 2^31 items."
  },
  {
   "property": "C14",
   "status": "proved",
   "theorems": [
    "Verif.Boundary.end_of_step",
    "Verif.Boundary.boundCharge_total"
   ],
   "note": "Exact arithmetic."
  },
  {
   "property": "C68",
   "status": "proved",
   "theorems": [
    "Verif.Boundary.absorb_tally_conforms",
    "Verif.Boundary.absorb_tally_counts",
    "Verif.Boundary.reflux_conforms",
    "Verif.Boundary.reflux_spec",
    "Verif.Boundary.conforming_of_handlers"
   ],
   "note": "Exact arithmetic; random numbers are arbitrary, with a non-negative exponential variate."
  },
  {
   "property": "C38",
   "status": "proved",
   "theorems": [
    "Verif.Checkpt.checkpoint_roundtrip",
    "Verif.Checkpt.restored_graph",
    "Verif.Checkpt.simulation_roundtrip",
    "Verif.Checkpt.restore_agrees",
    "Verif.Checkpt.checkpt_succeeds",
    "Verif.Checkpt.earlier_of_inOrder",
    "Verif.Checkpt.self_pointer_stale",
    "Verif.Checkpt.later_pointer_unrestorable",
    "Verif.Checkpt.truncation_undetected",
    "Verif.Checkpt.Sample.sample_roundtrip"
   ],
   "note": "Little-endian bytes, the 24 classes of objects of a simulation, a restoring process with other addresses. Restore functions run as readers of the stream. Pointers read with restore_ptr must be to objects registered before; otherwise they cannot be restored (later_pointer_unrestorable) or are stale (self_pointer_stale)."
  },
  {
   "property": "C39",
   "status": "proved",
   "theorems": [
    "Verif.Checkpt.history_ids",
    "Verif.Checkpt.ids_not_reused",
    "Verif.Checkpt.lookup_spec",
    "Verif.Checkpt.register_spec",
    "Verif.Checkpt.unregister_spec",
    "Verif.Checkpt.restart_ids",
    "Verif.Checkpt.halt_iff",
    "Verif.Checkpt.not_booted",
    "Verif.Checkpt.id_wraps",
    "Verif.Checkpt.Sample.sample_history"
   ],
   "note": "All histories with fewer than 2^64-1 registrations, over restarts; after that the id 0 is given (id_wraps)."
  },
  {
   "property": "C40",
   "status": "proved",
   "theorems": [
    "Verif.Checkpt.incompatible_rejected",
    "Verif.Checkpt.incompatible_file_rejected",
    "Verif.Checkpt.object_header_checked",
    "Verif.Checkpt.item_header_checked",
    "Verif.Checkpt.truncation_undetected",
    "Verif.Checkpt.Sample.sample_rejected"
   ],
   "note": "World size, rank and pipeline counts, header of every object and item. A truncated file is not noticed (truncation_undetected), the format has no length or checksum."
  },
  {
   "property": "C58",
   "status": "proved",
   "theorems": [
    "Verif.Inject.inject_where",
    "Verif.Inject.inject_outside",
    "Verif.Inject.periodic_faces",
    "Verif.Inject.walled_faces",
    "Verif.Inject.Sample.sample_inject"
   ],
   "note": "Exact arithmetic; all decompositions, periodic and walled boxes. A position exactly at the upper end of a periodic axis belongs to no rank, the lower end being the same point."
  },
  {
   "property": "C59",
   "status": "partial",
   "theorems": [
    "Verif.Inject.inject_storage_partial",
    "Verif.Inject.emit_storage_and_charge",
    "Verif.Inject.inject_overruns_movers",
    "Verif.Inject.inject_raw_overruns"
   ],
   "note": "The checks hold for particle storage and for emitters. Missing because false of the code: inject_particle with an age and a full mover list warns and then writes past the storage (inject_overruns_movers); inject_particle_raw has no check."
  },
  {
   "property": "C60",
   "status": "partial",
   "theorems": [
    "Verif.Inject.emit_face_partial",
    "Verif.Inject.emit_storage_and_charge",
    "Verif.Inject.emitted_weights_differ",
    "Verif.Inject.Sample.sample_emit"
   ],
   "note": "Charge balance holds for every emission. Equal weights hold with one particle per face; with more the weight variable is overwritten while aging the previous particle, and the weights differ (emitted_weights_differ)."
  },
  {
   "property": "C61",
   "status": "partial",
   "theorems": [
    "Verif.Dump.field_dump_partial",
    "Verif.Dump.hydro_dump_partial",
    "Verif.Dump.dump_whole",
    "Verif.Dump.kept_spec",
    "Verif.Dump.cells_length",
    "Verif.Dump.bad_stride_refused",
    "Verif.Dump.mixed_stride_wrong",
    "Verif.Dump.field_materials_undefined",
    "Verif.Dump.hydro_interleave_wrong",
    "Verif.Dump.spare_bit_undefined",
    "Verif.Dump.Sample.sample_dump"
   ],
   "note": "Proved for strides all one or all larger than one. Missing because false of the code: an axis of stride one beside a strided one loses its last plane of cells (mixed_stride_wrong); banded material dumps read past the array (field_materials_undefined); interleaved moment dumps have no boundary and with stride one hold the wrong cells (hydro_interleave_wrong)."
  },
  {
   "property": "C62",
   "status": "proved",
   "theorems": [
    "Verif.Dump.dump_particles_spec",
    "Verif.Dump.dump_particles_terminates",
    "Verif.Dump.dump_particles_overflows",
    "Verif.Dump.sample_dump_particles"
   ],
   "note": "Every interleaving of center_p's pipelines; up to 2^31-32768 particles, above which the loop counter overflows (dump_particles_overflows)."
  },
  {
   "property": "C69",
   "status": "proved",
   "theorems": [
    "Verif.Charge.step_continuity",
    "Verif.Charge.step_continuity_courant",
    "Verif.Charge.step_runs",
    "Verif.Charge.round_balance",
    "Verif.SfInterface.unload_accumulator_result",
    "Verif.SfInterface.unload_accumulator_runs"
   ],
   "note": "Exact arithmetic. step_continuity_courant needs no assumption on what the exchanges leave over; step_runs shows that every phase completes. Collisions, emitters and deck functions are left out of the step."
  },
  {
   "property": "C70",
   "status": "proved",
   "theorems": [
    "Verif.Charge.exchanges_suffice",
    "Verif.Charge.exchanges_suffice_periodic"
   ],
   "note": "Exact arithmetic with a true square root. Handlers that send particles back in (reflux) are excluded: for them three rounds need not suffice, and end_of_step (C14) says what happens to the rest."
  },
  {
   "property": "C71",
   "status": "partial",
   "theorems": [
    "Verif.Torus.decomposition_independent_partial",
    "Verif.Torus.run_global",
    "Verif.Torus.advance_b_global",
    "Verif.Torus.advance_e_global",
    "Verif.Torus.compute_div_e_global",
    "Verif.Torus.one_cell_slabs_differ"
   ],
   "note": "Proved when no axis is cut into slabs of one cell. Missing because false of the code: the derivative along an axis is dropped when the rank has one cell along it, even if the box has more (one_cell_slabs_differ). Exact arithmetic; operations advance_b, compute_curl_b, advance_e, compute_div_e_err."
  },
  {
   "property": "C72",
   "status": "proved",
   "theorems": [
    "Verif.Torus.gauss_kept",
    "Verif.Torus.full_step_gauss",
    "Verif.Torus.shuffle_gauss",
    "Verif.Torus.ready_kept",
    "Verif.Torus.full_step_runs",
    "Verif.Torus.steps_run",
    "Verif.Charge.particle_phase_sized"
   ],
   "note": "Exact arithmetic; periodic box of insulating materials, slabs of at least two cells along cut axes, Courant limit. steps_run shows that runs of any length exist. Injection, absorption and deck functions are left out of the step."
  },
  {
   "property": "C73",
   "status": "proved",
   "theorems": [
    "Verif.Field.absorbing_wall"
   ],
   "note": "Exact arithmetic; the remote exchange leaves these ghosts alone (C33)."
  },
  {
   "property": "C74",
   "status": "proved",
   "theorems": [
    "Verif.Torus.poynting",
    "Verif.Torus.field_steps_run"
   ],
   "note": "Exact arithmetic; periodic box, slabs of at least two cells along cut axes, insulating materials, damp = 0. The energy is the leap-frog one: E^2 + c^2 B^2 less the curl correction of a half step."
  },
  {
   "property": "C75",
   "status": "proved",
   "theorems": [
    "Verif.Torus.stable",
    "Verif.Torus.stable_below_courant_length",
    "Verif.Torus.courant_length_limit",
    "Verif.Torus.field_steps_run"
   ],
   "note": "Exact arithmetic with a true square root; same setting as C74 with no current. At f = 1 energy may grow, so f < 1 is needed."
  },
  {
   "property": "C76",
   "status": "proved",
   "theorems": [
    "Verif.Material.coefficients_exact",
    "Verif.Material.coefficients_passive",
    "Verif.Material.nonconductive_spec",
    "Verif.Material.table_spec",
    "Verif.Material.warnings_spec",
    "Verif.Material.magnetic_undefined"
   ],
   "note": "Real arithmetic with true exp and sinh; materials with zero eps or mu excluded (infinities in floating point). With magnetic conductivity the warning itself is undefined behaviour (magnetic_undefined), so zeta = 0 is required."
  },
  {
   "property": "C77",
   "status": "proved",
   "theorems": [
    "Verif.Torus.poynting_lossy",
    "Verif.Torus.stable_passive",
    "Verif.Torus.curlBound_slow"
   ],
   "note": "Exact arithmetic; same setting as C74. The energy of a conductor is counted with the permittivity (1+decay)/(2 drive), which is at least eps (coefficients_passive) and equal to it for an insulator."
  },
  {
   "property": "C78",
   "status": "proved",
   "theorems": [
    "Verif.Material.no_warning_stable"
   ],
   "note": "Exact real arithmetic; periodic box, one material, damp = 0. For mixtures the per-material estimate does not suffice in general and nothing is claimed beyond C75 and C77."
  },
  {
   "property": "C79",
   "status": "proved",
   "theorems": [
    "Verif.Simd.vector_advance_p",
    "Verif.Simd.vector_advance_p_runs",
    "Verif.Simd.vector_advance_p_periodic_box"
   ],
   "note": "Exact arithmetic with a true square root (so that rsqrt followed by a product is a quotient). Excluded are the particles on which the vector mover differs (C80). The portable vector classes are modelled; the intrinsics versions are not."
  },
  {
   "property": "C80",
   "status": "partial",
   "theorems": [
    "Verif.Simd.vector_move_p_partial",
    "Verif.Simd.vector_move_p_hangs",
    "Verif.Simd.vector_move_p_never_returns",
    "Verif.Simd.vector_move_p_departs",
    "Verif.Simd.vector_move_p_differs"
   ],
   "note": "Missing because false of the code: a particle exactly on the upper face of its cell without displacement along that axis is taken to hit the face; on a reflecting wall the loop never ends (vector_move_p_hangs), on another boundary the particle is handed to it (vector_move_p_departs)."
  },
  {
   "property": "C81",
   "status": "proved",
   "theorems": [
    "Verif.Simd.field_kernels_same_in_every_build",
    "Verif.Simd.vector_advance_b",
    "Verif.Simd.vector_advance_e",
    "Verif.Simd.vector_vacuum_advance_e",
    "Verif.Simd.vector_compute_curl_b",
    "Verif.Simd.vector_vacuum_compute_curl_b",
    "Verif.Simd.vector_clean_div_b",
    "Verif.Simd.vector_advance_b_runs",
    "Verif.Simd.vector_edge_kernel_runs",
    "Verif.Simd.vector_clean_div_b_runs"
   ],
   "note": "Exact arithmetic. A block is one step of a pipeline; the portable vector classes are modelled, the intrinsics versions are not."
  },
  {
   "property": "C82",
   "status": "proved",
   "theorems": [
    "Verif.Torus.run_keeps_gauss",
    "Verif.Torus.initialize_runs",
    "Verif.Torus.advance_runs",
    "Verif.Torus.runs_run"
   ],
   "note": "Exact arithmetic; periodic box, slabs of at least two cells along cut axes, insulating or perfectly conducting nodes as in C72. The functions of the input deck other than user_initialization do nothing; no emitters. The *_runs theorems show that such runs exist."
  },
  {
   "property": "C83",
   "status": "proved",
   "theorems": [
    "Verif.Torus.run_div_b_falls"
   ],
   "note": "Exact arithmetic, sqrt any monotone function with sqrt 0 = 0; periodic box as in C82, cells of the same positive volume, a direction with more than one cell."
  },
  {
   "property": "C84",
   "status": "proved",
   "theorems": [
    "Verif.Simd.vector_center_p",
    "Verif.Simd.vector_uncenter_p",
    "Verif.Simd.vector_energy_p",
    "Verif.Simd.vector_hydro_p"
   ],
   "note": "Exact arithmetic, with a true square root for center_p and uncenter_p. The portable vector classes are modelled, the intrinsics versions are not."
  },
  {
   "property": "C85",
   "status": "proved",
   "theorems": [
    "Verif.Simd.vector_reduce_result",
    "Verif.Simd.vector_reduce_eq_scalar",
    "Verif.Simd.vector_reduce_accumulators",
    "Verif.Simd.vector_reduce_hydro",
    "Verif.Simd.acc_whole",
    "Verif.Simd.hydro_whole",
    "Verif.Simd.vector_reduce_stragglers",
    "Verif.Simd.vector_load_interpolator"
   ],
   "note": "Exact arithmetic; sizes whose index arithmetic fits an int (C34). vector_reduce_stragglers shows that elements after the last whole vector would be lost; acc_whole and hydro_whole that no mesh has any."
  },
  {
   "property": "C86",
   "status": "proved",
   "theorems": [
    "Verif.Threads.advance_p_any_threads",
    "Verif.Threads.room_quiet"
   ],
   "note": "Exact arithmetic: the order in which currents are added changes the last bits of a float, which is not modelled. Every push must be defined (PushOk), as C12 shows below the Courant limit."
  },
  {
   "property": "C87",
   "status": "proved",
   "theorems": [
    "Verif.Threads.run_any_threads",
    "Verif.Threads.steps_any_threads"
   ],
   "note": "Exact arithmetic. Any boundaries and handlers that keep their contract; no collisions and no emitters (each pipeline has its own random numbers there); the functions of the input deck other than user_initialization do nothing. begin_runs and cycle_runs show that such runs exist."
  },
  {
   "property": "C88",
   "status": "proved",
   "theorems": [
    "Verif.Threads.restart_continues",
    "Verif.Threads.interrupted_run",
    "Verif.Threads.restored_exist"
   ],
   "note": "Exact arithmetic, the bytes of numbers being decoded by arbitrary functions. The setup (mesh, materials, parameters) is taken to be the same after the restart; C38 shows that the objects it is in are restored. No collisions and no emitters. restored_exist shows that every checkpoint can be restored."
  },
  {
   "property": "C89",
   "status": "proved",
   "theorems": [
    "Verif.Single.unary_applied",
    "Verif.Single.langevin_applied",
    "Verif.Single.langevin_everyone",
    "Verif.Single.langevin_exact",
    "Verif.Single.langevin_stationary",
    "Verif.Single.langevin_no_collisions",
    "Verif.Single.unary_pool"
   ],
   "note": "Exact arithmetic; the distributions are for ideal independent standard normal numbers. langevin_applied needs a generator per pipeline: langevin() does not check this, langevin_small_pool_undefined. kT/(m c) is the documented variance; it is that of a bath of temperature kT only if cvac = 1, langevin_temperature."
  },
  {
   "property": "C90",
   "status": "proved",
   "theorems": [
    "Verif.Normal.randn_normal",
    "Verif.Normal.randn_ends",
    "Verif.Normal.fill_normal",
    "Verif.Normal.rande_exponential",
    "Verif.Normal.exact_table_exists",
    "Verif.Normal.frandn_table",
    "Verif.Normal.drandn_table",
    "Verif.Normal.randn_near",
    "Verif.Normal.fill_near",
    "Verif.Normal.frandn_law",
    "Verif.Normal.drandn_law"
   ],
   "note": "Raw numbers are ideal: independent, their sign, index and remaining bits uniform, the latter a real number; exact arithmetic. Exact tables exist for 64 and 256 strips; with those in the code (as written, before rounding to single or double precision) every event has its probability within the share 10^-12 (frandn_law, drandn_law). What the bits do is in C65 (ziggurat_indices, ziggurat_wraps)."
  },
  {
   "property": "C91",
   "status": "proved",
   "theorems": [
    "Verif.Global.moved_global",
    "Verif.Global.moved_any_decomposition"
   ],
   "note": "Exact arithmetic. Global.push is the specification: a walk on one periodic mesh; what happens inside one cell is shared with the model of the single domain (C05, C14, C16)."
  },
  {
   "property": "C92",
   "status": "proved",
   "theorems": [
    "Verif.Global.run_in_box",
    "Verif.Global.run_any_decomposition",
    "Verif.Global.boxCycle_det",
    "Verif.Global.boxCycles_det"
   ],
   "note": "Exact arithmetic. The specification of the run without ranks is Global/RunSpec.lean. The ranks must agree on shared fields before initialize (they do when they are set from a formula or zero); begin_runs and cycle_runs show that such runs exist."
  },
  {
   "property": "C93",
   "status": "proved",
   "theorems": [
    "Verif.Region.point_material_set",
    "Verif.Region.point_field_set"
   ],
   "note": "Exact arithmetic for the positions; the region and the equations are functions of the position."
  },
  {
   "property": "C94",
   "status": "proved",
   "theorems": [
    "Verif.Region.region_material_set"
   ],
   "note": "Both materials given; the other cases are C95."
  },
  {
   "property": "C95",
   "status": "partial",
   "theorems": [
    "Verif.Region.region_material_leave_partial",
    "Verif.Region.region_interior_not_left"
   ],
   "note": "False of the code for the interior: the surface material is given to every place that touches the region before the interior material is, so with leave_unchanged for the interior the places there get the surface material (region_interior_not_left). Proved for the surface, for both, and for everything outside."
  },
  {
   "property": "C96",
   "status": "partial",
   "theorems": [
    "Verif.Region.region_field_set_partial",
    "Verif.Region.region_field_misplaced",
    "Verif.Region.region_field_divergence"
   ],
   "note": "False of the code: the equations are evaluated one cell too far along the axes where the component is at the boundary of its cell (region_field_misplaced), so a magnetic field without divergence gets one (region_field_divergence). Proved: which components are set, and to which (shifted) values."
  },
  {
   "property": "C97",
   "status": "proved",
   "theorems": [
    "Verif.Region.materials_any_decomposition",
    "Verif.Region.fields_any_decomposition"
   ],
   "note": "Exact arithmetic; in floating point, positions on the surface of the region may be rounded differently on each rank."
  },
  {
   "property": "C98",
   "status": "proved",
   "theorems": [
    "Verif.Region.region_bc_set"
   ],
   "note": "set_point_region_bc cannot be compiled (missing semicolons) and is not modelled."
  },
  {
   "property": "C99",
   "status": "proved",
   "theorems": [
    "Verif.Region.region_surface_not_crossed",
    "Verif.Region.periodic_joins",
    "Verif.Region.neighbor_in_region"
   ],
   "note": "Exact arithmetic, the scalar move_p. Particles that a boundary handler injects afterwards are the business of that handler."
  },
  {
   "property": "C100",
   "status": "proved",
   "theorems": [
    "Verif.Region.volume_emitter_lists",
    "Verif.Region.surface_emitter_lists"
   ],
   "note": "Without overflow of the 32 bit component numbers, i.e. below 2^26 voxels per rank."
  },
  {
   "property": "C101",
   "status": "proved",
   "theorems": [
    "Verif.Global.run_any_place",
    "Verif.Global.boxCycle_ahead",
    "Verif.Global.boxBegin_ahead"
   ],
   "note": "Exact arithmetic; conditions as for C92."
  },
  {
   "property": "C102",
   "status": "proved",
   "theorems": [
    "Verif.Global.particles_kept"
   ],
   "note": "Conditions as for C92."
  },
  {
   "property": "C103",
   "status": "proved",
   "theorems": [
    "Verif.Global.run_by_charges",
    "Verif.Global.tracers_do_not_disturb",
    "Verif.Global.species_in_any_order"
   ],
   "note": "Exact arithmetic; conditions as for C92. No collisions and emitters."
  },
  {
   "property": "C104",
   "status": "proved",
   "theorems": [
    "Verif.Global.flight_in_uniform_field",
    "Verif.Global.walk_place"
   ],
   "note": "Exact arithmetic; conditions as for C92. With a magnetic field the permeability must be uniform."
  },
  {
   "property": "C105",
   "status": "proved",
   "theorems": [
    "Verif.Dispatch.omp_is_interleaving",
    "Verif.Dispatch.serial_is_interleaving",
    "Verif.Dispatch.dispatchers_agree",
    "Verif.Dispatch.same_argument",
    "Verif.Dispatch.omp_stride_wrong"
   ],
   "note": "Arguments agree for stride zero, which all callers in the repository use; for stride one the OpenMP macro scales the offset by the size twice (omp_stride_wrong)."
  },
  {
   "property": "C106",
   "status": "proved",
   "theorems": [
    "Verif.Global.charge_conjugation",
    "Verif.Global.boxCycles_conj",
    "Verif.Global.boxBegin_conj"
   ],
   "note": "Exact arithmetic; conditions as for C92."
  },
  {
   "property": "C107",
   "status": "proved",
   "theorems": [
    "Verif.Global.run_any_axes",
    "Verif.Global.boxCycles_moved",
    "Verif.Global.boxBegin_moved",
    "Verif.Global.Walk.begin",
    "Verif.Global.Walk.walk"
   ],
   "note": "Exact arithmetic; conditions as for C92."
  },
  {
   "property": "C108",
   "status": "proved",
   "theorems": [
    "Verif.Global.run_in_mirror",
    "Verif.Global.boxCycles_image",
    "Verif.Global.boxBegin_image"
   ],
   "note": "Exact arithmetic; conditions as for C92."
  },
  {
   "property": "C109",
   "status": "proved",
   "theorems": [
    "Verif.Dump.field_dump_read_back",
    "Verif.Dump.hydro_dump_read_back",
    "Verif.Dump.dump_whole_read_back",
    "Verif.Dump.dump_particles_read_back",
    "Verif.Dump.dump_grid_read_back",
    "Verif.Dump.data_start",
    "Verif.Dump.long_step_lost"
   ],
   "note": "Writes that fail are not modelled. The reader is Dump/BytesSpec.lean. What the words of fields, moments and particles are is in C61, C62."
  },
  {
   "property": "C110",
   "status": "proved",
   "theorems": [
    "Verif.Dump.name_determines",
    "Verif.Dump.tagged_name_determines",
    "Verif.Dump.time_name_determines",
    "Verif.Dump.time_name_step",
    "Verif.Dump.time_name_inside",
    "Verif.Dump.names_fit",
    "Verif.Dump.names_overflow",
    "Verif.Dump.tag_ambiguous"
   ],
   "note": "A name with tag can be the name without tag of another base (tag_ambiguous). Directory and base of 127 characters each, which the parameters can hold, overflow the array of the name for very large steps (names_overflow)."
  },
  {
   "property": "C111",
   "status": "partial",
   "theorems": [
    "Verif.Dump.header_lists",
    "Verif.Dump.field_header_partial",
    "Verif.Dump.hydro_header_partial",
    "Verif.Dump.list_names",
    "Verif.Dump.component_not_announced",
    "Verif.Dump.materials_misannounced"
   ],
   "note": "False of the code for single components (not announced, or as the whole vector: component_not_announced) and for materials (announced with two bytes, written as words of four: materials_misannounced). Proved for all selections of whole quantities without materials."
  },
  {
   "property": "C112",
   "status": "proved",
   "theorems": [
    "Verif.Dump.energies_table",
    "Verif.Dump.energies_labels",
    "Verif.Dump.materials_read_back",
    "Verif.Dump.species_read_back",
    "Verif.Dump.species_one_line"
   ],
   "note": "What %e prints is any text without spaces, line breaks and percent signs, for the mass with an exponent of two digits (finite single precision)."
  },
  {
   "property": "C113",
   "status": "proved",
   "theorems": [
    "Verif.Modify.modify_sets",
    "Verif.Modify.modify_quota",
    "Verif.Modify.modify_defined",
    "Verif.Modify.printed_read",
    "Verif.Modify.documented_name_ignored",
    "Verif.Modify.long_line_split",
    "Verif.Modify.Sample.sample_modify"
   ],
   "note": "What %le takes is arbitrary. The name num_steps that the comment documents is ignored (documented_name_ignored); the rest of a long line counts as a line (long_line_split)."
  },
  {
   "property": "C114",
   "status": "partial",
   "theorems": [
    "Verif.Vector.loads_4",
    "Verif.Vector.stores_4",
    "Verif.Vector.moves_4",
    "Verif.Vector.loads_8",
    "Verif.Vector.stores_8",
    "Verif.Vector.moves_8",
    "Verif.Vector.loads_16",
    "Verif.Vector.stores_16",
    "Verif.Vector.moves_16",
    "Verif.Vector.load_16x2_bc_iff",
    "Verif.Vector.loads_agree",
    "Verif.Vector.stores_agree",
    "Verif.Vector.load_store",
    "Verif.Vector.neon_load_4x8_tr_partial",
    "Verif.Vector.neon_load_4x8_tr_wrong",
    "Verif.Vector.neon_store_4x8_tr_fifth",
    "Verif.Vector.neon_store_4x8_tr_wrong"
   ],
   "note": "False of the code for load_4x8_tr and store_4x8_tr of the NEON version (neon_load_4x8_tr_wrong, neon_store_4x8_tr_wrong), which no pipeline calls; proved for all other functions. Arithmetic and bitwise operations are not part of it; the Altivec version is not modelled."
  },
  {
   "property": "C115",
   "status": "partial",
   "theorems": [
    "Verif.Vector.fields_4",
    "Verif.Vector.fields_8",
    "Verif.Vector.particles_8",
    "Verif.Vector.particles_16_partial",
    "Verif.Vector.fields_16_undefined",
    "Verif.Vector.field_row_16_undefined",
    "Verif.Vector.energy_16_undefined",
    "Verif.Vector.materials_16"
   ],
   "note": "False of the code for the field pipelines and energy_p of the AVX-512 version: load_16x2_tr, load_16x3_tr and load_16x4_tr load 64 bytes at addresses that are only multiples of 16 bytes. Proved for four and eight lanes and for particles and materials with sixteen."
  },
  {
   "property": "C116",
   "status": "partial",
   "theorems": [
    "Verif.Vector.operators_right",
    "Verif.Vector.merge_select",
    "Verif.Vector.compare_value",
    "Verif.Vector.updates_right",
    "Verif.Vector.notEqual_right_partial",
    "Verif.Vector.ordered_right_partial",
    "Verif.Vector.ordered_wrong",
    "Verif.Vector.ordered_not_right",
    "Verif.Vector.not_right_partial",
    "Verif.Vector.not_wrong",
    "Verif.Vector.opposite_right_partial",
    "Verif.Vector.opposite_wrong",
    "Verif.Vector.copySign_right_partial",
    "Verif.Vector.copyLess_right_partial",
    "Verif.Vector.copySign_wrong",
    "Verif.Vector.clear_right_partial",
    "Verif.Vector.clear_wrong",
    "Verif.Vector.none_full",
    "Verif.Vector.fused_right",
    "Verif.Vector.rsqrt_right",
    "Verif.Vector.rcp_right",
    "Verif.Vector.inverse_portable",
    "Verif.Vector.trilinear_right",
    "Verif.Vector.trilinear_sse"
   ],
   "note": "False of the code in five places: !=, && and || of NaN with eight lanes on AVX (ordered_wrong), ! of minus zero in the portable, NEON and AVX-512 versions (not_wrong), unary minus of zero on x86 (opposite_wrong), copysign of minus zero and NaN in the portable and NEON versions (copySign_wrong), clear_bits on NEON (clear_wrong). Proved for all other operators and for all other words. Division, remainder, shifts and increments of integer vectors, the functions of math.h other than sqrt, fabs, copysign and the Altivec version are not modelled."
  },
  {
   "property": "C117",
   "status": "partial",
   "theorems": [
    "Verif.Poynting.flux_partial",
    "Verif.Poynting.flux_uniform_partial",
    "Verif.Poynting.flux_undefined",
    "Verif.Poynting.flux_flat",
    "Verif.Poynting.flux_not_right"
   ],
   "note": "False of the code with two or more domains along x: the other domains sum an array of which memset cleared only the first quarter (flux_undefined). Proved for one domain along x. In exact arithmetic."
  },
  {
   "property": "C118",
   "status": "partial",
   "theorems": [
    "Verif.Collide.op_off_interval",
    "Verif.Collide.takizuka_abe_operator",
    "Verif.Collide.binary_operator_partial",
    "Verif.Collide.operator_list",
    "Verif.Collide.legacy_empty_stale",
    "Verif.Collide.legacy_sort_not_ok",
    "Verif.Collide.takizuka_abe_completes",
    "Verif.Collide.binary_completes"
   ],
   "note": "Proved in full for the Takizuka-Abe operator and lists of such operators with the default sort. False of the code for the binary operators with more than 65535 particles of a species in a voxel (C53) and, with the legacy sort, after a species became empty: the early return leaves the old partition table but records the sort (legacy_sort_not_ok). Exact arithmetic."
  },
  {
   "property": "C119",
   "status": "proved",
   "theorems": [
    "Verif.Collide.takizuka_abe_mean",
    "Verif.Collide.binary_pair_mean"
   ],
   "note": "Exact arithmetic and ideal uniform numbers in [0,1); those of the library are multiples of a power of two. Takizuka-Abe for the whole operator, the binary models for one collision. With the default sort."
  },
  {
   "property": "C120",
   "status": "partial",
   "theorems": [
    "Verif.Profile.profile_table",
    "Verif.Profile.profile_quiet",
    "Verif.Profile.profile_percent",
    "Verif.Profile.profile_defined_partial",
    "Verif.Profile.profile_undefined",
    "Verif.Profile.calls_counted_partial",
    "Verif.Profile.rho_miscounted",
    "Verif.Profile.rho_row_missing"
   ],
   "note": "False of the code in two places: accumulate_rho_p is counted once too little in each step that cleans the electric field, because the id of the last species is taken for the number of species (rho_miscounted; with one species its row is missing after a restore, rho_row_missing), and a table after blocks that took no time is undefined (profile_undefined). Proved for all other timers and all histories in which some time passed. Exact arithmetic for times."
  },
  {
   "property": "C121",
   "status": "partial",
   "theorems": [
    "Verif.Uniform.uniform_inside_partial",
    "Verif.Uniform.uniform_closed_partial",
    "Verif.Uniform.uniform_near_partial",
    "Verif.Uniform.uniform_ends",
    "Verif.Uniform.uniform_outside"
   ],
   "note": "False of the code: for intervals that do not contain zero the ends occur (uniform_ends, between 1 and 2), and with equal bounds the result can be the next larger number (uniform_outside). Proved: strictly inside for intervals that contain zero, never outside of the closed interval for low < high, and within 2^-51 of the exact value. Overflow and underflow are not modelled."
  },
  {
   "property": "C122",
   "status": "partial",
   "theorems": [
    "Verif.Place.placed_inside",
    "Verif.Place.placed_near",
    "Verif.Place.some_rank_partial",
    "Verif.Place.one_rank_partial",
    "Verif.Place.inject_lost"
   ],
   "note": "False of the code: the ends of the domains are stored in float, so that in a box whose end is not of single precision a particle between the rounded and the given end is injected by no rank (inject_lost). Proved per axis for ends of single precision, at least one rank for all boxes (between the rounded ends), and the placement for all domains. Exactly one rank needs domains not narrower than 2^-49 of the distance from the origin, or a box that contains it. Overflow and underflow are not modelled."
  },
  {
   "property": "C123",
   "status": "partial",
   "theorems": [
    "Verif.Streak.end_inside",
    "Verif.Streak.cross_near",
    "Verif.Streak.movement_inside_partial",
    "Verif.Streak.two_faces_partial",
    "Verif.Streak.any_faces_partial",
    "Verif.Streak.courant_slow",
    "Verif.Streak.disp_near",
    "Verif.Streak.stay_near",
    "Verif.Streak.step_inside_partial",
    "Verif.Streak.step_any_partial",
    "Verif.Streak.handed_over_outside"
   ],
   "note": "False of the code: a particle that reaches two faces at once can be handed over to the boundary of the first one with the other offset above 1 by one unit in the last place (handed_over_outside). Proved: this is the largest deviation, such a particle goes on to cross the other face, and every movement over at most two faces ends inside, and over any number of faces unless two successive crossings before the last leave an offset outside, for every momentum if light moves by at most 1 - 2^-20 of a voxel in a step; the displacement is that of the velocity up to twelve roundings. Missing: the end of movements over three faces of which both of the first two leave an offset outside. Portable versions of advance_p and move_p, without overflow and underflow; of sqrtf only its relative error is used."
  },
  {
   "property": "C124",
   "status": "proved",
   "theorems": [
    "Verif.Flow.share_mean",
    "Verif.Flow.shares_total",
    "Verif.Flow.deposit_near",
    "Verif.Flow.push_near"
   ],
   "note": "Portable versions of advance_p and move_p, every operation rounded to nearest single precision (the last product of the correction of move_p in double), without overflow and underflow. The mean share is an integral along the piece. Pieces whose midpoint is outside of the closed voxel are not covered; push_near shows that there are none for particles that stay in their voxel."
  },
  {
   "property": "C125",
   "status": "partial",
   "theorems": [
    "Verif.Flow.weight_nonneg",
    "Verif.Flow.weight_face",
    "Verif.Flow.weight_near",
    "Verif.Flow.weight_total",
    "Verif.Flow.part_nodes",
    "Verif.Flow.rho_particles",
    "Verif.Flow.rho_grows",
    "Verif.Flow.rho_stalls"
   ],
   "note": "Proved for the shares of a single particle and their signs, nodes and additions; never lower for a positive charge. False of the code: that the density grows. Sums are kept in single precision, so at a node whose density is 2^28 times the share of a particle any number of further particles adds nothing (rho_stalls). Without contraction of products and sums, overflow and underflow."
  },
  {
   "property": "C126",
   "status": "proved",
   "theorems": [
    "Verif.Drift.step_curl",
    "Verif.Drift.step_flux",
    "Verif.Drift.flux_drift",
    "Verif.Drift.quiet_b"
   ],
   "note": "Portable advance_b away from the conditions at walls; the flux is measured with the same rounded ratios of step and spacing that the code uses. Without overflow and underflow."
  },
  {
   "property": "C127",
   "status": "proved",
   "theorems": [
    "Verif.Gyro.rotate_near",
    "Verif.Gyro.rotate_sq",
    "Verif.Gyro.boris_sq",
    "Verif.Gyro.many_sq",
    "Verif.Gyro.tan_near",
    "Verif.Gyro.slow_near",
    "Verif.Gyro.boris_near",
    "Verif.Gyro.parallel_exact"
   ],
   "note": "Portable version; the half advances by the electric field are not part of it. How far the three terms of the series are from the tangent is not claimed: the length of the momentum does not depend on it. Square root within one rounding (SqrtNear). Without contraction, overflow and underflow."
  },
  {
   "property": "C128",
   "status": "proved",
   "theorems": [
    "Verif.Gyro.eAt_near",
    "Verif.Gyro.bAt_near",
    "Verif.Gyro.eAt_uniform",
    "Verif.Gyro.advU_near",
    "Verif.Gyro.bAt_uniform",
    "Verif.Gyro.free_exact"
   ],
   "note": "Portable versions of load_interpolator and advance_p. The angle of the rotation is that of C127 for the momentum in the middle of the step and the magnetic field that the particle sees. Square root within one rounding (SqrtNear). Without contraction, overflow and underflow."
  },
  {
   "property": "C129",
   "status": "proved",
   "theorems": [
    "Verif.Drift.stepE_near",
    "Verif.Drift.step_gauss",
    "Verif.Drift.gauss_drift",
    "Verif.Drift.quiet_e"
   ],
   "note": "Portable vacuum_advance_e away from walls, with the same permeability in all directions; the flux is measured with the same rounded ratios of step and spacing that the code uses, and the statements over steps are for vacuum without damping of radiation. Without overflow and underflow."
  },
  {
   "property": "C130",
   "status": "proved",
   "theorems": [
    "Verif.Gyro.one_near",
    "Verif.Gyro.all_near"
   ],
   "note": "Portable version, without the sum over ranks and the factor c\u00b2. gamma is that of the momentum after half an electric kick as computed; how near this is to the exact one is C128. Square root within one rounding (SqrtNear), nonnegative mass times weight. Without contraction, overflow and underflow."
  },
  {
   "property": "C131",
   "status": "proved",
   "theorems": [
    "Verif.Gyro.voxel_near",
    "Verif.Gyro.field_near"
   ],
   "note": "Version for a single material; without the sum over ranks and the last factor of eps0 dV / 2. Weights are not negative. Without contraction, overflow and underflow."
  },
  {
   "property": "C132",
   "status": "proved",
   "theorems": [
    "Verif.Flow.edge_near",
    "Verif.Flow.two_runs"
   ],
   "note": "Portable versions of the reduction and of unload_accumulator. That the code adds the slots that belong together is C34; what a particle deposits is C124. Without overflow and underflow."
  },
  {
   "property": "C133",
   "status": "proved",
   "theorems": [
    "Verif.Drift.divBErr_near",
    "Verif.Drift.divBErr_uniform",
    "Verif.Drift.divEErr_near",
    "Verif.Drift.divEErr_conductor",
    "Verif.Drift.cleanB_near",
    "Verif.Drift.cleanE_near",
    "Verif.Drift.clean_quiet"
   ],
   "note": "Vacuum and portable versions, away from walls and ghosts, with given factors of the axes. That cleaning reduces the divergence in exact arithmetic is a separate claim. Without overflow and underflow."
  }
 ]
}
