S = "Verif.SortP."
claim("C06", "proved", [S+"sort_stable"], "Pipeline sort; every schedule, scratch contents and rounding, up to 256 pipelines (above that the code stops with an error: sort_fails_above_256).")
claim("C07", "proved", [S+"sort_partition", S+"sort_partition_end_untouched"],
      "All voxels except the last ghost one: the pipeline sort never writes the final table entry.")
claim("C08", "proved", [S+"sort_deterministic", S+"stableSort_unique", S+"sort_agrees_with_legacy", S+"sort_stable"], "")
claim("C09", "proved", [S+"inplace_sort"], "Terminates within 2 np + nc + 2 iterations.")
M = "Verif.MoveP."
claim("C15", "proved", [M+"move_p_trajectory", M+"move_p_displacement", M+"move_p_periodic_box"],
      "Exact arithmetic over any linearly ordered field; the loop terminates within n0+n1+n2+1 passes when |disp k| <= n k. Streak coordinates are in half cells, as in the code.")
claim("C16", "proved", [M+"move_p_conserves_charge", M+"move_p_conserves_charge_node", M+"periodic_box_conserves_charge"],
      "Nodes identified by a mesh joined to itself are added up; node by node when it is not.")
A = "Verif.AdvanceP."
claim("C10", "proved", [A+"advance_p_movers", A+"advance_exists", A+"courant_push_ok"],
      "Every interleaving of the pipelines' particle steps; every push assumed valid (inside of the arrays), which courant_push_ok discharges for a time step of at most one cell.")
claim("C16", "proved", [M+"move_p_conserves_charge", M+"move_p_conserves_charge_node", M+"periodic_box_conserves_charge",
      A+"advance_p_conserves_charge", A+"advance_p_periodic_box"],
      "For one move, and for advance_p over a whole species with any pipeline count. Nodes identified by a mesh joined to itself are added up; node by node when it is not.")
claim("C17", "proved", [A+"in_cell_push_is_segment_move"], "")
B = "Verif.Boris."
claim("C18", "proved", [B+"rotation_preserves_norm", B+"rotation_is_boris", B+"rotation_preserves_parallel", B+"pure_magnetic_field_does_no_work"],
      "rotate is shared by the models of advance_p, center_p and uncenter_p (and hydro_p). The square root is an arbitrary function.")
claim("C19", "proved", [B+"center_uncenter_species", B+"uncenter_center", B+"center_uncenter"], "Whole species, every pipeline count and interleaving.")
U = "Verif.Util."
claim("C46", "proved", [U+"malloc_aligned", U+"malloc_aligned_rejects", U+"pow2Ceil_spec"],
      "For every request whose padded size fits in size_t; above that the size wraps (malloc_aligned_wraps).")
claim("C47", "proved", [U+"strip_cmdline_value", U+"strip_cmdline_flag", U+"options_rest", U+"options_exists"], "")
claim("C48", "proved", [U+"bswap16_spec", U+"bswap32_spec", U+"bswap64_spec", U+"swap_structs"], "")
claim("C49", "partial", [U+"bitfield_membership", U+"bitfield_counts", U+"bitfield_mask_query_partial", U+"bitsset_wrong"],
      "The mask query reads the mask as a bit number, so that part is false of the code (bitsset_wrong); the rest is proved.")
claim("C51", "partial", [U+"size_buffer_partial", U+"size_buffers_partial", U+"size_buffer_rejects", U+"size_buffer_off_by_one", U+"size_buffer_overflow"],
      "False of the code for the port just behind the last one and for requests above 1636178017 bytes; proved for all others.")
T = "Verif.Turnstile."
claim("C50", "proved", [T+"at_most_n_inside", T+"no_deadlock", T+"runs_are_finite", T+"every_rank_passes", T+"no_message_left"],
      "Any number of ranks and of turnstiles except 0 (zero_turnstiles_hang); sends may block or be buffered.")
R = "Verif.Registry."
claim("C52", "partial", [R+"append_species_ids", R+"append_material_ids", R+"lookups", R+"append_bc_ids_partial", R+"append_bc_twice", R+"append_emitter_once", R+"append_cop_twice"],
      "Boundary handlers: appending the only handler a second time is accepted and makes the list circular (append_bc_twice); proved when handlers are distinct.")
DP = "Verif.Dispatch."
claim("C36", "proved", [DP+"jobs_run_exactly_once", DP+"jobs_run_at_most_once", DP+"misuse_is_the_only_error", DP+"halt_ends_workers"],
      "Any number of pipelines, zero or one job executed by the host (the default), spurious wakeups included, sequentially consistent memory.")
claim("C37", "partial", [DP+"calls_return", DP+"completion_reachable", DP+"fair_run_exists", DP+"dispatch_to_host_hangs"],
      "Every call returns in every weakly fair execution for --dispatch_to_host 0 or 1; for larger values, which boot accepts, wait never returns (dispatch_to_host_hangs).")

G = "Verif.Rng."
claim("C41", "proved", [G+"frand_intervals", G+"drand_intervals", G+"int_intervals"],
      "For every floating format which represents the needed dyadic numbers exactly and any rounding otherwise.")
claim("C42", "proved", [G+"draws_follow_stream"], "")
claim("C43", "proved", [G+"randperm_is_permutation", G+"randperm_uniform", G+"draw_preimages", G+"randperm_no_overflow",
      G+"shuffle_is_rearrangement", G+"shuffle_no_div_zero", G+"shuffle_two_biased"],
      "randperm: int arithmetic stays in range for up to 2^30 elements; at 2^31-1 a rejected draw overflows (randperm_overflow_example). shuffle gives a rearrangement but is not uniform (shuffle_two_biased).")
claim("C44", "proved", [G+"pool_seeds_distinct", G+"generators_start_differently", G+"sync_seed_same", G+"seedRng_injective"],
      "User seeds whose derived seeds are representable in an int.")
claim("C45", "proved", [G+"adjust_certified", G+"adjust_certified_id", G+"adjust_minimal", G+"seeded_certified"], "")
claim("C65", "proved", [G+"sfmt_next_is_recursion", G+"sfmt_sse_eq_portable", G+"ziggurat_indices", G+"ziggurat_wraps"], "")

CO = "Verif.Collision."
claim("C53", "partial", [CO+"pairs_inside_partial", CO+"select_safe_iff", CO+"pair_outside", CO+"selection_uniform"],
      "Proved for up to 65535 particles per voxel; false of the code from 65536 on (pair_outside): the rejection loop tests k==nk instead of k>=nk. select_safe_iff gives the exact condition.")
claim("C54", "proved", [CO+"ta_intra_counts", CO+"ta_inter_counts", CO+"ta_inter_empty", CO+"ta_shuffle"], "")
claim("C55", "proved", [CO+"hard_sphere_conserves", CO+"large_angle_conserves", CO+"takizuka_abe_conserves", CO+"conserves_exact", CO+"kernels_conserve_real"],
      "Exact arithmetic; with the regularisation FLT_MIN the energy loss is at most 3/2 mu FLT_MIN.")
claim("C56", "proved", [CO+"stripes_partition", CO+"voxel_ranges_disjoint", CO+"collisions_schedule_independent", "Verif.Distribute.unary_split_exact"],
      "Striped voxels (binary, Takizuka-Abe) and split particle ranges (unary, Langevin).")
claim("C57", "proved", [CO+"lighter_updated", CO+"ta_lighter_updated", CO+"unselected_unchanged"], "")
claim("C63", "proved", ["Verif.Step.advance_result", "Verif.Step.sort_count", "Verif.Step.clean_e_count", "Verif.Step.clean_b_count", "Verif.Step.sync_status_count", "Verif.Step.push_once", "Verif.Step.step_order", "Verif.Step.leapfrog", "Verif.Step.main_loop", "Verif.Step.main_loop_late", "Verif.Step.main_loop_forever", "Verif.Step.restart_same", "Verif.Step.run_sort_count"],
      "Kernels are opaque tasks in a log; user hooks are assumed not to modify step, num_step and intervals.")
claim("C64", "proved", ["Verif.EnergyP.energy_each_once", "Verif.EnergyP.energy_pipeline_independent", "Verif.EnergyP.energy_nonneg", "Verif.EnergyP.energy_zero_iff", "Verif.EnergyP.energyOne_eq", "Verif.EnergyP.energyOne_real"],
      "Exact arithmetic; local sum (before the MPI sum and the factor c^2).")

D = "Verif.Deposit."
claim("C20", "proved", [D+"rho_p_adds", D+"rho_p_local", D+"rho_p_corner", D+"share_nonneg", D+"rho_p_total", D+"rho_p_moment", D+"rho_p_order"], "Exact arithmetic.")
claim("C21", "proved", [D+"rhob_conserves"], "Exact arithmetic; all mesh sizes including one cell in a direction.")
claim("C22", "proved", ["Verif.Hydro.hydro_adds", "Verif.Hydro.hydro_total", "Verif.Hydro.kinematics_spec", "Verif.Hydro.ke_is_gamma_minus_one"],
      "Exact arithmetic, any square root function, any interleaving of the pipelines.")
SF = "Verif.SfInterface."
claim("C34", "partial", [SF+"reduce_sums", SF+"reduce_accumulators_partial", SF+"reduce_hydro_partial", SF+"reduce_overflow", SF+"reduce_hydro_overflow"],
      "Proved for every number of arrays and pipelines whose index arithmetic fits an int. Beyond, the code computes the index in int and overflows (reduce_hydro_overflow: 254^3 cells, 9 pipelines).")
claim("C35", "proved", [SF+"clear_zeroes", SF+"clear_accumulators", SF+"clear_hydro"], "")

FD = "Verif.Field."
claim("C24", "proved", [FD+"advance_b_keeps_div_b", FD+"div_b_preserved", FD+"compute_div_b_agrees", FD+"advance_b_result", FD+"div_b_changes_at_symmetric_wall"],
      "Exact arithmetic; any schedule of the pipelines and any number of steps. Cells away from walls with the symmetric_fields code; next to those the code sets the normal component to zero after the update and creates a divergence (div_b_changes_at_symmetric_wall).")
claim("C25", "proved", [FD+"advance_e_div", FD+"advance_e_keeps_gauss", FD+"gauss_preserved"],
      "Exact arithmetic, undamped insulators, nodes off conducting walls, all mesh sizes; the curl uses ghost values of B that satisfy the exchange's contract.")
claim("C26", "proved", [FD+"advance_b_result", FD+"edge_kernel_result", FD+"edge_kernel_is_step", FD+"compute_div_e_result", FD+"compute_rhob_result", FD+"clean_div_e_result", FD+"clean_div_b_result", FD+"cell_sweep_result", FD+"advance_b_runs", FD+"edge_kernel_runs", FD+"compute_div_e_runs", FD+"clean_div_e_runs", FD+"clean_div_b_runs"],
      "For every interleaving of the pipelines with the calling thread: each component that exists gets the value computed from the state at the start, everything else is unchanged. Runs exist for every mesh.")
claim("C28", "proved", [FD+"rms_div_e_each_node_once", FD+"node_weights_add_up", FD+"rms_of_uniform_error", FD+"rms_div_b_each_cell_once"], "Local sums of one rank; exact arithmetic.")
claim("C29", "proved", [FD+"energy_f_each_cell_once", FD+"energy_f_pipeline_independent", FD+"energy_f_nonneg", FD+"vacuum_energy_agrees"], "Local sums of one rank; exact arithmetic.")
claim("C33", "proved", [FD+"unknown_code_is_an_error", FD+"tang_e_zero_on_conductor", FD+"norm_b_zero_on_symmetric", FD+"div_e_zero_on_walls", FD+"rhob_zero_on_conductor", FD+"rhof_at_walls", FD+"jf_at_walls", FD+"ghost_div_b", FD+"ghost_norm_e", FD+"ghost_tang_b"],
      "All sides, boundary codes and mesh sizes.")
claim("C66", "proved", [FD+"compute_rhob_removes_error"], "Exact arithmetic; nodes off conducting and other walls whose adjust step changes the charge.")
claim("C67", "proved", [FD+"vacuum_kernels_agree", FD+"vacuum_energy_agrees"], "Exact arithmetic, same value for every position.")

claim("C27", "proved", [FD+"clean_div_b_contracts", FD+"clean_div_e_contracts", FD+"clean_div_b_keeps_clean",
    FD+"clean_div_e_keeps_clean", FD+"clean_passes_run", FD+"clean_e_passes_run"],
    "Periodic boxes over any number of ranks. Exact arithmetic. With zero error walls are allowed too. For E the "
    "contraction assumes that the ranks agree on the errors of shared nodes and on ghost materials.")
claim("C32", "partial", [FD+"message_sizes", FD+"ghost_exchange", FD+"periodic_world_linked",
    FD+"walled_world_linked", FD+"same_place"],
    "Ghost exchanges of tangential B, normal E and div B errors. The synchronisation messages are not in it yet.")

claim("C30", "proved", [FD+"synchronize_jf_sums", FD+"synchronize_rho_sums", FD+"synchronize_hydro_sums",
    FD+"copies_agree_after_sum", FD+"copies_eq", FD+"mem_copies_self", FD+"synchronize_frame", FD+"synchronize_runs",
    FD+"periodic_world_cart", FD+"walled_world_cart"],
    "Exact arithmetic, any array of ranks (periodic or walled per axis), all mesh sizes, up to eight copies. The copies "
    "are specified through the coordinate in the global mesh.")
claim("C31", "proved", [FD+"synchronize_tang_e_norm_b_means", FD+"copies_agree_after_mean", FD+"synchronize_error",
    FD+"error_ignores_damping_term", FD+"synchronize_runs"],
    "Exact arithmetic, any array of ranks. The damping term tca is averaged too but its disagreement is not measured "
    "(error_ignores_damping_term).")
claim("C32", "proved", [FD+"message_sizes", FD+"ghost_exchange", FD+"periodic_world_linked",
    FD+"walled_world_linked", FD+"same_place", FD+"sync_message_sizes", FD+"synchronize_runs", FD+"synchronize_jf_sums",
    FD+"synchronize_rho_sums", FD+"synchronize_hydro_sums", FD+"synchronize_tang_e_norm_b_means"],
    "All seven exchanges. Delivery follows MPI's matching of source and tag.")

IN = "Verif.Interp."
claim("C23", "proved", [IN+"load_interpolator_result", IN+"load_interpolator_runs", IN+"interpolated_field",
    IN+"interpolation_exact", IN+"interpolation_continuous"],
    "Exact arithmetic, every interleaving of the pipelines, all mesh sizes and offsets.")

BD = "Verif.Boundary."
claim("C11", "proved", [BD+"backfill_removes_named", BD+"backfill_completes"],
    "Strictly increasing mover lists, which advance_p and boundary_p produce (advance_p_movers, round_particles).")
claim("C12", "proved", [BD+"round_particles", BD+"waiting_fate", BD+"round_conserves", BD+"round_counts", BD+"arrival_position",
    BD+"periodic_joined", BD+"walled_joined"],
    "Exact arithmetic. Any number of ranks, any periodic or walled partition, any handlers that keep their contract. "
    "Message delivery follows the matching of source and tag.")
claim("C13", "proved", [BD+"round_exists", BD+"resize_keeps", BD+"resize_fits", BD+"arrivals_length"],
    "Sizes up to what int holds are hypotheses: message of 16+48 n bytes, storage below 2^31 items.")
claim("C14", "proved", [BD+"end_of_step", BD+"boundCharge_total"], "Exact arithmetic.")
claim("C68", "proved", [BD+"absorb_tally_conforms", BD+"absorb_tally_counts", BD+"reflux_conforms", BD+"reflux_spec",
    BD+"conforming_of_handlers"],
    "Exact arithmetic; random numbers are arbitrary, with a non-negative exponential variate.")

CP = "Verif.Checkpt."
claim("C38", "proved", [CP+"checkpoint_roundtrip", CP+"restored_graph", CP+"simulation_roundtrip", CP+"restore_agrees",
    CP+"checkpt_succeeds", CP+"earlier_of_inOrder", CP+"self_pointer_stale", CP+"later_pointer_unrestorable",
    CP+"truncation_undetected", CP+"Sample.sample_roundtrip"],
    "Little-endian bytes, the 24 classes of objects of a simulation, a restoring process with other addresses. Restore "
    "functions run as readers of the stream. Pointers read with restore_ptr must be to objects registered before; otherwise "
    "they cannot be restored (later_pointer_unrestorable) or are stale (self_pointer_stale).")
claim("C39", "proved", [CP+"history_ids", CP+"ids_not_reused", CP+"lookup_spec", CP+"register_spec", CP+"unregister_spec",
    CP+"restart_ids", CP+"halt_iff", CP+"not_booted", CP+"id_wraps", CP+"Sample.sample_history"],
    "All histories with fewer than 2^64-1 registrations, over restarts; after that the id 0 is given (id_wraps).")
claim("C40", "proved", [CP+"incompatible_rejected", CP+"incompatible_file_rejected", CP+"object_header_checked",
    CP+"item_header_checked", CP+"truncation_undetected", CP+"Sample.sample_rejected"],
    "World size, rank and pipeline counts, header of every object and item. A truncated file is not noticed "
    "(truncation_undetected), the format has no length or checksum.")

IJ = "Verif.Inject."
claim("C58", "proved", [IJ+"inject_where", IJ+"inject_outside", IJ+"periodic_faces", IJ+"walled_faces", IJ+"Sample.sample_inject"],
    "Exact arithmetic; all decompositions, periodic and walled boxes. A position exactly at the upper end of a periodic axis "
    "belongs to no rank, the lower end being the same point.")
claim("C59", "partial", [IJ+"inject_storage_partial", IJ+"emit_storage_and_charge", IJ+"inject_overruns_movers", IJ+"inject_raw_overruns"],
    "The checks hold for particle storage and for emitters. Missing because false of the code: inject_particle with an age "
    "and a full mover list warns and then writes past the storage (inject_overruns_movers); inject_particle_raw has no check.")
claim("C60", "partial", [IJ+"emit_face_partial", IJ+"emit_storage_and_charge", IJ+"emitted_weights_differ", IJ+"Sample.sample_emit"],
    "Charge balance holds for every emission. Equal weights hold with one particle per face; with more the weight variable is "
    "overwritten while aging the previous particle, and the weights differ (emitted_weights_differ).")

DU = "Verif.Dump."
claim("C61", "partial", [DU+"field_dump_partial", DU+"hydro_dump_partial", DU+"dump_whole", DU+"kept_spec", DU+"cells_length",
    DU+"bad_stride_refused", DU+"mixed_stride_wrong", DU+"field_materials_undefined", DU+"hydro_interleave_wrong",
    DU+"spare_bit_undefined", DU+"Sample.sample_dump"],
    "Proved for strides all one or all larger than one. Missing because false of the code: an axis of stride one beside a "
    "strided one loses its last plane of cells (mixed_stride_wrong); banded material dumps read past the array "
    "(field_materials_undefined); interleaved moment dumps have no boundary and with stride one hold the wrong cells "
    "(hydro_interleave_wrong).")
claim("C62", "proved", [DU+"dump_particles_spec", DU+"dump_particles_terminates", DU+"dump_particles_overflows", DU+"sample_dump_particles"],
    "Every interleaving of center_p's pipelines; up to 2^31-32768 particles, above which the loop counter overflows "
    "(dump_particles_overflows).")

CH = "Verif.Charge."
claim("C69", "proved", [CH+"step_continuity", CH+"step_continuity_courant", CH+"step_runs", CH+"round_balance",
    "Verif.SfInterface.unload_accumulator_result", "Verif.SfInterface.unload_accumulator_runs"],
    "Exact arithmetic. step_continuity_courant needs no assumption on what the exchanges leave over; step_runs shows that "
    "every phase completes. Collisions, emitters and deck functions are left out of the step.")
claim("C70", "proved", [CH+"exchanges_suffice", CH+"exchanges_suffice_periodic"],
    "Exact arithmetic with a true square root. Handlers that send particles back in (reflux) are excluded: for them three "
    "rounds need not suffice, and end_of_step (C14) says what happens to the rest.")

TO = "Verif.Torus."
claim("C71", "partial", [TO+"decomposition_independent_partial", TO+"run_global", TO+"advance_b_global", TO+"advance_e_global",
    TO+"compute_div_e_global", TO+"one_cell_slabs_differ"],
    "Proved when no axis is cut into slabs of one cell. Missing because false of the code: the derivative along an axis is "
    "dropped when the rank has one cell along it, even if the box has more (one_cell_slabs_differ). Exact arithmetic; "
    "operations advance_b, compute_curl_b, advance_e, compute_div_e_err.")
claim("C72", "proved", [TO+"gauss_kept", TO+"full_step_gauss", TO+"shuffle_gauss"],
    "Exact arithmetic; periodic box of insulating materials, slabs of at least two cells along cut axes, Courant limit. "
    "Injection, absorption and deck functions are left out of the step.")

claim("C72", "proved", [TO+"gauss_kept", TO+"full_step_gauss", TO+"shuffle_gauss", TO+"ready_kept", TO+"full_step_runs",
    TO+"steps_run", CH+"particle_phase_sized"],
    "Exact arithmetic; periodic box of insulating materials, slabs of at least two cells along cut axes, Courant limit. "
    "steps_run shows that runs of any length exist. Injection, absorption and deck functions are left out of the step.")
claim("C73", "proved", [FD+"absorbing_wall"], "Exact arithmetic; the remote exchange leaves these ghosts alone (C33).")
claim("C74", "proved", [TO+"poynting", TO+"field_steps_run"],
    "Exact arithmetic; periodic box, slabs of at least two cells along cut axes, insulating materials, damp = 0. The energy "
    "is the leap-frog one: E^2 + c^2 B^2 less the curl correction of a half step.")
claim("C75", "proved", [TO+"stable", TO+"stable_below_courant_length", TO+"courant_length_limit", TO+"field_steps_run"],
    "Exact arithmetic with a true square root; same setting as C74 with no current. At f = 1 energy may grow, so f < 1 is needed.")

MA = "Verif.Material."
claim("C76", "proved", [MA+"coefficients_exact", MA+"coefficients_passive", MA+"nonconductive_spec", MA+"table_spec",
    MA+"warnings_spec", MA+"magnetic_undefined"],
    "Real arithmetic with true exp and sinh; materials with zero eps or mu excluded (infinities in floating point). With "
    "magnetic conductivity the warning itself is undefined behaviour (magnetic_undefined), so zeta = 0 is required.")
claim("C77", "proved", [TO+"poynting_lossy", TO+"stable_passive", TO+"curlBound_slow"],
    "Exact arithmetic; same setting as C74. The energy of a conductor is counted with the permittivity (1+decay)/(2 drive), "
    "which is at least eps (coefficients_passive) and equal to it for an insulator.")
claim("C78", "proved", [MA+"no_warning_stable"],
    "Exact real arithmetic; periodic box, one material, damp = 0. For mixtures the per-material estimate does not suffice "
    "in general and nothing is claimed beyond C75 and C77.")

SI = "Verif.Simd."
claim("C79", "proved", [SI+"vector_advance_p", SI+"vector_advance_p_runs", SI+"vector_advance_p_periodic_box"],
    "Exact arithmetic with a true square root (so that rsqrt followed by a product is a quotient). Excluded are the particles on "
    "which the vector mover differs (C80). The portable vector classes are modelled; the intrinsics versions are not.")
claim("C80", "partial", [SI+"vector_move_p_partial", SI+"vector_move_p_hangs", SI+"vector_move_p_never_returns",
    SI+"vector_move_p_departs", SI+"vector_move_p_differs"],
    "Missing because false of the code: a particle exactly on the upper face of its cell without displacement along that axis "
    "is taken to hit the face; on a reflecting wall the loop never ends (vector_move_p_hangs), on another boundary the particle "
    "is handed to it (vector_move_p_departs).")
claim("C81", "proved", [SI+"field_kernels_same_in_every_build", SI+"vector_advance_b", SI+"vector_advance_e", SI+"vector_vacuum_advance_e",
    SI+"vector_compute_curl_b", SI+"vector_vacuum_compute_curl_b", SI+"vector_clean_div_b", SI+"vector_advance_b_runs",
    SI+"vector_edge_kernel_runs", SI+"vector_clean_div_b_runs"],
    "Exact arithmetic. A block is one step of a pipeline; the portable vector classes are modelled, the intrinsics versions are not.")

claim("C82", "proved", [TO+"run_keeps_gauss", TO+"initialize_runs", TO+"advance_runs", TO+"runs_run"],
    "Exact arithmetic; periodic box, slabs of at least two cells along cut axes, insulating or perfectly conducting nodes as in C72. The "
    "functions of the input deck other than user_initialization do nothing; no emitters. The *_runs theorems show that such runs exist.")
claim("C83", "proved", [TO+"run_div_b_falls"],
    "Exact arithmetic, sqrt any monotone function with sqrt 0 = 0; periodic box as in C82, cells of the same positive volume, a direction "
    "with more than one cell.")
claim("C84", "proved", [SI+"vector_center_p", SI+"vector_uncenter_p", SI+"vector_energy_p", SI+"vector_hydro_p"],
    "Exact arithmetic, with a true square root for center_p and uncenter_p. The portable vector classes are modelled, the intrinsics "
    "versions are not.")
claim("C85", "proved", [SI+"vector_reduce_result", SI+"vector_reduce_eq_scalar", SI+"vector_reduce_accumulators",
    SI+"vector_reduce_hydro", SI+"acc_whole", SI+"hydro_whole", SI+"vector_reduce_stragglers", SI+"vector_load_interpolator"],
    "Exact arithmetic; sizes whose index arithmetic fits an int (C34). vector_reduce_stragglers shows that elements after the last whole "
    "vector would be lost; acc_whole and hydro_whole that no mesh has any.")
TH="Verif.Threads."
claim("C86", "proved", [TH+"advance_p_any_threads", TH+"room_quiet"],
    "Exact arithmetic: the order in which currents are added changes the last bits of a float, which is not modelled. Every push must be "
    "defined (PushOk), as C12 shows below the Courant limit.")
claim("C87", "proved", [TH+"run_any_threads", TH+"steps_any_threads"],
    "Exact arithmetic. Any boundaries and handlers that keep their contract; no collisions and no emitters (each pipeline has its own "
    "random numbers there); the functions of the input deck other than user_initialization do nothing. begin_runs and cycle_runs show that "
    "such runs exist.")
claim("C88", "proved", [TH+"restart_continues", TH+"interrupted_run", TH+"restored_exist"],
    "Exact arithmetic, the bytes of numbers being decoded by arbitrary functions. The setup (mesh, materials, parameters) is taken to be the same "
    "after the restart; C38 shows that the objects it is in are restored. No collisions and no emitters. restored_exist shows that every checkpoint "
    "can be restored.")
SG = "Verif.Single."
claim("C89", "proved", [SG+"unary_applied", SG+"langevin_applied", SG+"langevin_everyone", SG+"langevin_exact", SG+"langevin_stationary", SG+"langevin_no_collisions", SG+"unary_pool"],
    "Exact arithmetic; the distributions are for ideal independent standard normal numbers. langevin_applied needs a generator per pipeline: langevin() does not check "
    "this, langevin_small_pool_undefined. kT/(m c) is the documented variance; it is that of a bath of temperature kT only if cvac = 1, langevin_temperature.")
NO = "Verif.Normal."
claim("C90", "proved", [NO+"randn_normal", NO+"randn_ends", NO+"fill_normal", NO+"rande_exponential", NO+"exact_table_exists", NO+"frandn_table", NO+"drandn_table", NO+"randn_near", NO+"fill_near", NO+"frandn_law", NO+"drandn_law"],
    "Raw numbers are ideal: independent, their sign, index and remaining bits uniform, the latter a real number; exact arithmetic. Exact tables exist for 64 and 256 strips; with those in "
    "the code (as written, before rounding to single or double precision) every event has its probability within the share 10^-12 (frandn_law, drandn_law). What the bits do is in C65 (ziggurat_indices, ziggurat_wraps).")
GL = "Verif.Global."
claim("C91", "proved", [GL+"moved_global", GL+"moved_any_decomposition"],
    "Exact arithmetic. Global.push is the specification: a walk on one periodic mesh; what happens inside one cell is shared with the model of the single domain (C05, C14, C16).")
claim("C92", "proved", [GL+"run_in_box", GL+"run_any_decomposition", GL+"boxCycle_det", GL+"boxCycles_det"],
    "Exact arithmetic. The specification of the run without ranks is Global/RunSpec.lean. The ranks must agree on shared fields before initialize (they do when they are set from a formula or zero); begin_runs and "
    "cycle_runs show that such runs exist.")
RG = "Verif.Region."
claim("C93", "proved", [RG+"point_material_set", RG+"point_field_set"], "Exact arithmetic for the positions; the region and the equations are functions of the position.")
claim("C94", "proved", [RG+"region_material_set"], "Both materials given; the other cases are C95.")
claim("C95", "partial", [RG+"region_material_leave_partial", RG+"region_interior_not_left"],
    "False of the code for the interior: the surface material is given to every place that touches the region before the interior material is, so with leave_unchanged for the interior the places there get the "
    "surface material (region_interior_not_left). Proved for the surface, for both, and for everything outside.")
claim("C96", "partial", [RG+"region_field_set_partial", RG+"region_field_misplaced", RG+"region_field_divergence"],
    "False of the code: the equations are evaluated one cell too far along the axes where the component is at the boundary of its cell (region_field_misplaced), so a magnetic field without divergence gets one "
    "(region_field_divergence). Proved: which components are set, and to which (shifted) values.")
claim("C97", "proved", [RG+"materials_any_decomposition", RG+"fields_any_decomposition"], "Exact arithmetic; in floating point, positions on the surface of the region may be rounded differently on each rank.")
claim("C98", "proved", [RG+"region_bc_set"], "set_point_region_bc cannot be compiled (missing semicolons) and is not modelled.")
claim("C99", "proved", [RG+"region_surface_not_crossed", RG+"periodic_joins", RG+"neighbor_in_region"], "Exact arithmetic, the scalar move_p. Particles that a boundary handler injects afterwards are the business of that handler.")
claim("C100", "proved", [RG+"volume_emitter_lists", RG+"surface_emitter_lists"], "Without overflow of the 32 bit component numbers, i.e. below 2^26 voxels per rank.")
claim("C101", "proved", [GL+"run_any_place", GL+"boxCycle_ahead", GL+"boxBegin_ahead"], "Exact arithmetic; conditions as for C92.")
claim("C102", "proved", [GL+"particles_kept"], "Conditions as for C92.")
claim("C103", "proved", [GL+"run_by_charges", GL+"tracers_do_not_disturb", GL+"species_in_any_order"], "Exact arithmetic; conditions as for C92. No collisions and emitters.")
claim("C104", "proved", [GL+"flight_in_uniform_field", GL+"walk_place"], "Exact arithmetic; conditions as for C92. With a magnetic field the permeability must be uniform.")
D_ = "Verif.Dispatch."
claim("C105", "proved", [D_+"omp_is_interleaving", D_+"serial_is_interleaving", D_+"dispatchers_agree", D_+"same_argument", D_+"omp_stride_wrong"], "Arguments agree for stride zero, which all callers in the repository use; for stride one the OpenMP macro scales the offset by the size twice (omp_stride_wrong).")
claim("C106", "proved", [GL+"charge_conjugation", GL+"boxCycles_conj", GL+"boxBegin_conj"], "Exact arithmetic; conditions as for C92.")
claim("C107", "proved", [GL+"run_any_axes", GL+"boxCycles_moved", GL+"boxBegin_moved", GL+"Walk.begin", GL+"Walk.walk"], "Exact arithmetic; conditions as for C92.")
claim("C108", "proved", [GL+"run_in_mirror", GL+"boxCycles_image", GL+"boxBegin_image"], "Exact arithmetic; conditions as for C92.")
DU = "Verif.Dump."
claim("C109", "proved", [DU+"field_dump_read_back", DU+"hydro_dump_read_back", DU+"dump_whole_read_back", DU+"dump_particles_read_back", DU+"dump_grid_read_back", DU+"data_start", DU+"long_step_lost"],
    "Writes that fail are not modelled. The reader is Dump/BytesSpec.lean. What the words of fields, moments and particles are is in C61, C62.")
claim("C110", "proved", [DU+"name_determines", DU+"tagged_name_determines", DU+"time_name_determines", DU+"time_name_step", DU+"time_name_inside", DU+"names_fit", DU+"names_overflow", DU+"tag_ambiguous"],
    "A name with tag can be the name without tag of another base (tag_ambiguous). Directory and base of 127 characters each, which the parameters can hold, overflow the array of the name for very large steps (names_overflow).")
claim("C111", "partial", [DU+"header_lists", DU+"field_header_partial", DU+"hydro_header_partial", DU+"list_names", DU+"component_not_announced", DU+"materials_misannounced"],
    "False of the code for single components (not announced, or as the whole vector: component_not_announced) and for materials (announced with two bytes, written as words of four: materials_misannounced). Proved for all "
    "selections of whole quantities without materials.")
claim("C112", "proved", [DU+"energies_table", DU+"energies_labels", DU+"materials_read_back", DU+"species_read_back", DU+"species_one_line"],
    "What %e prints is any text without spaces, line breaks and percent signs, for the mass with an exponent of two digits (finite single precision).")
MO = "Verif.Modify."
claim("C113", "proved", [MO+"modify_sets", MO+"modify_quota", MO+"modify_defined", MO+"printed_read", MO+"documented_name_ignored", MO+"long_line_split", MO+"Sample.sample_modify"],
    "What %le takes is arbitrary. The name num_steps that the comment documents is ignored (documented_name_ignored); the rest of a long line counts as a line (long_line_split).")
VE = "Verif.Vector."
claim("C114", "partial", [VE+x for x in ["loads_4","stores_4","moves_4","loads_8","stores_8","moves_8","loads_16","stores_16","moves_16","load_16x2_bc_iff","loads_agree","stores_agree","load_store","neon_load_4x8_tr_partial","neon_load_4x8_tr_wrong","neon_store_4x8_tr_fifth","neon_store_4x8_tr_wrong"]],
    "False of the code for load_4x8_tr and store_4x8_tr of the NEON version (neon_load_4x8_tr_wrong, neon_store_4x8_tr_wrong), which no pipeline calls; proved for all other functions. Arithmetic and bitwise operations are not part of it; the Altivec version is not modelled.")
claim("C115", "partial", [VE+x for x in ["fields_4","fields_8","particles_8","particles_16_partial","fields_16_undefined","field_row_16_undefined","energy_16_undefined","materials_16"]],
    "False of the code for the field pipelines and energy_p of the AVX-512 version: load_16x2_tr, load_16x3_tr and load_16x4_tr load 64 bytes at addresses that are only multiples of 16 bytes. Proved for four and eight lanes and for particles and materials with sixteen.")
claim("C116", "partial", [VE+x for x in ["operators_right","merge_select","compare_value","updates_right","notEqual_right_partial","ordered_right_partial","ordered_wrong","ordered_not_right","not_right_partial","not_wrong","opposite_right_partial","opposite_wrong","copySign_right_partial","copyLess_right_partial","copySign_wrong","clear_right_partial","clear_wrong","none_full","fused_right","rsqrt_right","rcp_right","inverse_portable","trilinear_right","trilinear_sse"]],
    "False of the code in five places: !=, && and || of NaN with eight lanes on AVX (ordered_wrong), ! of minus zero in the portable, NEON and AVX-512 versions (not_wrong), unary minus of zero on x86 (opposite_wrong), copysign of minus zero and NaN in the portable and NEON versions (copySign_wrong), clear_bits on NEON (clear_wrong). Proved for all other operators and for all other words. Division, remainder, shifts and increments of integer vectors, the functions of math.h other than sqrt, fabs, copysign and the Altivec version are not modelled.")
PO = "Verif.Poynting."
claim("C117", "partial", [PO+x for x in ["flux_partial","flux_uniform_partial","flux_undefined","flux_flat","flux_not_right"]],
    "False of the code with two or more domains along x: the other domains sum an array of which memset cleared only the first quarter (flux_undefined). Proved for one domain along x. In exact arithmetic.")
CO = "Verif.Collide."
claim("C118", "partial", [CO+x for x in ["op_off_interval","takizuka_abe_operator","binary_operator_partial","operator_list","legacy_empty_stale","legacy_sort_not_ok","takizuka_abe_completes","binary_completes"]],
    "Proved in full for the Takizuka-Abe operator and lists of such operators with the default sort. False of the code for the binary operators with more than 65535 particles of a species in a voxel (C53) and, with the legacy sort, after a species became empty: the early return leaves the old partition table but records the sort (legacy_sort_not_ok). Exact arithmetic.")
claim("C119", "proved", [CO+"takizuka_abe_mean", CO+"binary_pair_mean"],
    "Exact arithmetic and ideal uniform numbers in [0,1); those of the library are multiples of a power of two. Takizuka-Abe for the whole operator, the binary models for one collision. With the default sort.")

PR = "Verif.Profile."
claim("C120", "partial", [PR+x for x in ["profile_table","profile_quiet","profile_percent","profile_defined_partial","profile_undefined","calls_counted_partial","rho_miscounted","rho_row_missing"]],
    "False of the code in two places: accumulate_rho_p is counted once too little in each step that cleans the electric field, because the id of the last species is taken for the number of species (rho_miscounted; with one species its row is missing after a restore, rho_row_missing), and a table after blocks that took no time is undefined (profile_undefined). Proved for all other timers and all histories in which some time passed. Exact arithmetic for times.")

UN = "Verif.Uniform."
claim("C121", "partial", [UN+x for x in ["uniform_inside_partial","uniform_closed_partial","uniform_near_partial","uniform_ends","uniform_outside"]],
    "False of the code: for intervals that do not contain zero the ends occur (uniform_ends, between 1 and 2), and with equal bounds the result can be the next larger number (uniform_outside). Proved: strictly inside for intervals that contain zero, never outside of the closed interval for low < high, and within 2^-51 of the exact value. Overflow and underflow are not modelled.")

PL = "Verif.Place."
claim("C122", "partial", [PL+x for x in ["placed_inside","placed_near","some_rank_partial","one_rank_partial","inject_lost"]],
    "False of the code: the ends of the domains are stored in float, so that in a box whose end is not of single precision a particle between the rounded and the given end is injected by no rank (inject_lost). Proved per axis for ends of single precision, at least one rank for all boxes (between the rounded ends), and the placement for all domains. Exactly one rank needs domains not narrower than 2^-49 of the distance from the origin, or a box that contains it. Overflow and underflow are not modelled.")

SK = "Verif.Streak."
claim("C123", "partial", [SK+x for x in ["end_inside","cross_near","movement_inside_partial","two_faces_partial","any_faces_partial","courant_slow","disp_near","stay_near","step_inside_partial","step_any_partial","handed_over_outside"]],
    "False of the code: a particle that reaches two faces at once can be handed over to the boundary of the first one with the other offset above 1 by one unit in the last place (handed_over_outside). Proved: this is the largest deviation, such a particle goes on to cross the other face, and every movement over at most two faces ends inside, and over any number of faces unless two successive crossings before the last leave an offset outside, for every momentum if light moves by at most 1 - 2^-20 of a voxel in a step; the displacement is that of the velocity up to twelve roundings. Missing: the end of movements over three faces of which both of the first two leave an offset outside. Portable versions of advance_p and move_p, without overflow and underflow; of sqrtf only its relative error is used.")

FL = "Verif.Flow."
claim("C124", "proved", [FL+x for x in ["share_mean","shares_total","deposit_near","push_near"]],
    "Portable versions of advance_p and move_p, every operation rounded to nearest single precision (the last product of the correction of move_p in double), without overflow and underflow. The mean share is an integral along the piece. Pieces whose midpoint is outside of the closed voxel are not covered; push_near shows that there are none for particles that stay in their voxel.")

claim("C125", "partial", [FL+x for x in ["weight_nonneg","weight_face","weight_near","weight_total","part_nodes","rho_particles","rho_grows","rho_stalls"]],
    "Proved for the shares of a single particle and their signs, nodes and additions; never lower for a positive charge. False of the code: that the density grows. Sums are kept in single precision, so at a node whose density is 2^28 times the share of a particle any number of further particles adds nothing (rho_stalls). Without contraction of products and sums, overflow and underflow.")

DR = "Verif.Drift."
claim("C126", "proved", [DR+x for x in ["step_curl","step_flux","flux_drift","quiet_b"]],
    "Portable advance_b away from the conditions at walls; the flux is measured with the same rounded ratios of step and spacing that the code uses. Without overflow and underflow.")

GY = "Verif.Gyro."
claim("C127", "proved", [GY+x for x in ["rotate_near","rotate_sq","boris_sq","many_sq","tan_near","slow_near","boris_near","parallel_exact"]],
    "Portable version; the half advances by the electric field are not part of it. How far the three terms of the series are from the tangent is not claimed: the length of the momentum does not depend on it. Square root within one rounding (SqrtNear). Without contraction, overflow and underflow.")

claim("C128", "proved", [GY+x for x in ["eAt_near","bAt_near","eAt_uniform","advU_near","bAt_uniform","free_exact"]],
    "Portable versions of load_interpolator and advance_p. The angle of the rotation is that of C127 for the momentum in the middle of the step and the magnetic field that the particle sees. Square root within one rounding (SqrtNear). Without contraction, overflow and underflow.")

claim("C129", "proved", [DR+x for x in ["stepE_near","step_gauss","gauss_drift","quiet_e"]],
    "Portable vacuum_advance_e away from walls, with the same permeability in all directions; the flux is measured with the same rounded ratios of step and spacing that the code uses, and the statements over steps are for vacuum without damping of radiation. Without overflow and underflow.")

claim("C130", "proved", [GY+x for x in ["one_near","all_near"]],
    "Portable version, without the sum over ranks and the factor c². gamma is that of the momentum after half an electric kick as computed; how near this is to the exact one is C128. Square root within one rounding (SqrtNear), nonnegative mass times weight. Without contraction, overflow and underflow.")

claim("C131", "proved", [GY+x for x in ["voxel_near","field_near"]],
    "Version for a single material; without the sum over ranks and the last factor of eps0 dV / 2. Weights are not negative. Without contraction, overflow and underflow.")

claim("C132", "proved", [FL+x for x in ["edge_near","two_runs"]],
    "Portable versions of the reduction and of unload_accumulator. That the code adds the slots that belong together is C34; what a particle deposits is C124. Without overflow and underflow.")

claim("C133", "proved", [DR+x for x in ["divBErr_near","divBErr_uniform","divEErr_near","divEErr_conductor","cleanB_near","cleanE_near","clean_quiet"]],
    "Vacuum and portable versions, away from walls and ghosts, with given factors of the axes. That cleaning reduces the divergence in exact arithmetic is a separate claim. Without overflow and underflow.")
