# Formal model of lanl/vpic in Lean 4 — design

## 1. What this is

`/verif/lean` holds a model of selected functions of VPIC (`/repo`, C++), written as total Lean
functions and relations, and theorems about that model.  Every definition of the model carries a
comment with the file and the lines it models and what was simplified.  `properties.jsonl` lists
the English properties (C01, C02, …); `MANIFEST.json` maps each one to its theorems and says what is
missing where the status is `partial`.

Layout: for each topic `T`, `Verif/T/Model.lean` is the model of the code, `Verif/T/*Lemmas*.lean`
helper facts, `Verif/T/Props.lean` (and the other files named in section 3) a small specification, written
without the model's helpers, followed by the property theorems.  Beside each theorem, or in
`Verif/T/Sample.lean`, a concrete non-trivial instance shows that the hypotheses can be met.

`tools/gen_properties.py` and `tools/gen_manifest.py` (with `tools/claims_extra.py`) generate
`properties.jsonl` and `MANIFEST.json`.

## 2. Trusted base

* Lean 4.33.0's kernel (and Mathlib's definitions used in statements).
* Axioms: only `propext`, `Classical.choice`, `Quot.sound`.  No axiom is added, no `sorry`, no
  `native_decide`, no `bv_decide`.  Every theorem in the manifest depends on a subset of these three.
* The hand translation from C++ to Lean.  It is not machine checked: the citations are there so a
  reader can compare.

### Modelling conventions

* **Integers.** Index arithmetic is on `Nat`/`Int`; where a C type can overflow and the property
  depends on it (RNG, seeds, byte swap, bit fields, sort, reductions, message sizes, allocation) the width
  is modelled (`BitVec`, explicit `% 2^k`, or an `int` range test that makes the outcome undefined), else
  the absence of overflow is a hypothesis of the theorem or is stated as a simplification.
* **Floating point.** Physics identities are about exact arithmetic in an arbitrary (ordered) field:
  the code computes these formulas in `float`, so the claim is "the formula is right", not "the rounded
  result is".  `sqrt` is an arbitrary function, or one with `rt x * rt x = x` where that is needed.  Where
  rounding decides an *integer* result (C01, C02, C41) rounding is modelled: the theorem holds for **every**
  rounding function with relative error ≤ 2⁻⁵³, resp. for the bit-exact conversion.
* **SIMD.** The vector kernels named in section 3 are modelled over the portable vector classes
  (`v4_portable.h` and its 8- and 16-lane siblings): a vector is a function from lanes to numbers, loads
  and stores with transposition are the gathers and scatters of those classes, `rsqrt(a)` is
  `sqrt(1/a)`.  Of the versions with processor intrinsics the functions that move words are modelled
  (`Vector`, C114, C115: transcribed by `tools/gen_vector.py` over a model of each instruction), their
  arithmetic is not.  In `move_p`, `copysign(1,0)` and the shifted denominator are parameters
  (`V4Env`), as exact arithmetic does not say what they are.
* **Memory.** Arrays are functions or lists; an out-of-bounds access, division by zero or a failed
  `ERROR(( ))` is a distinct outcome (`none` or an error constructor), never a silently totalised value.
* **MPI.** Messages are delivered reliably and in order per (source, destination, tag); MPI itself
  is not modelled.  A `World` is a function from ranks to what each rank holds.
* **Threads.** A job of `EXEC_PIPELINES` is a list of atomic steps per pipeline; a theorem about a kernel
  holds for every interleaving of these lists with the calling thread (`Runs`, `Verif/Common/Interleave.lean`).
  One elementary update (one component, one particle) is one step.  Memory is sequentially consistent.
  The dispatcher that makes this true (C36, C37) is itself modelled as a transition system over mutexes and
  condition variables with spurious wakeups.
* **Loops** whose trip count is not known beforehand use fuel, and termination within an explicit bound is
  a theorem.
* **Random numbers** are arbitrary inputs, except in the theorems about the generator itself (C41–C45, C65).

## 3. Modules and the code they model

Paths are below `/repo/src`.

| module | code | properties |
|--------|------|-----------|
| `Common` | `util/pipelines/pipelines_exec*.h` (interleaving of steps) | — |
| `Distribute` | `util/util_base.h`, `util/pipelines/pipelines_exec.h`, `grid/grid.h` (`DISTRIBUTE`, `DISTRIBUTE_VOXELS`), the `unary`/`langevin` splits | C01, C02, C56 |
| `Grid` | `grid/grid.h` (`VOXEL`, `BOUNDARY`, rank macros), `grid/ops.cc` (`size_grid`, `join_grid`, `set_fbc`, `set_pbc`), `grid/partition.cc` | C03, C04, C05 |
| `SortP` | `species_advance/standard/pipeline/sort_p_pipeline.cc`, `sort_p.cc` | C06–C09 |
| `MoveP` | `species_advance/standard/move_p.cc` (scalar) | C15, C16 |
| `AdvanceP` | `species_advance/standard/pipeline/advance_p_pipeline.cc` and the host compaction | C10, C16, C17 |
| `Boris` | the push in `advance_p`, `center_p`, `uncenter_p` | C18, C19 |
| `Deposit` | `species_advance/standard/rho_p.cc` | C20, C21 |
| `Hydro` | `species_advance/standard/pipeline/hydro_p_pipeline.cc` | C22 |
| `EnergyP` | `species_advance/standard/pipeline/energy_p_pipeline.cc` | C64 |
| `Interp` | `sf_interface/pipeline/interpolator_array_pipeline.cc` | C23 |
| `SfInterface` | `reduce_array_pipeline.cc`, `clear_array_pipeline.cc`, `unload_accumulator_pipeline.cc` | C16, C34, C35 |
| `Field` | `field_advance/standard`: `advance_b`, `advance_e`, `compute_curl_b`, `compute_div_e_err`, `compute_rhob`, `clean_div_e`, `compute_div_b_err`, `clean_div_b`, the rms errors, `energy_f`, all with their `vacuum_` versions; `local.cc`; `remote.cc`; `sf_interface/hydro_array.cc`; `grid/grid_comm.cc` | C24–C33, C66, C67, C73 |
| `Boundary` | `boundary/boundary_p.cc`, `absorb_tally.cc`, `maxwellian_reflux.cc`, end of step in `vpic/advance.cc` | C11–C14, C68 |
| `Charge` | the particle part of `vpic/advance.cc` (clear, push, reduce, exchange rounds, unload) put together from the models above | C69, C70 |
| `Torus` | the field part of `vpic/advance.cc` on a periodic box cut in any way, compared with one global mesh; the whole step repeated; energy and stability; `courant_length` (`vpic/vpic.h`) | C71, C72, C74, C75, C77 |
| `Material` | `create_sfa_params` (`field_advance/standard/sfa.cc`) over the reals | C76, C78 |
| `Torus/Run*` | `vpic/initialize.cc`, `vpic/advance.cc` (without the functions of the input deck, emitters and collisions that change charge) | C82, C83 |
| `Simd` | `advance_p_pipeline_v4/v8/v16.cc`, `move_outbnd_v4.inc`, the vector `move_p`, vector loads, stores and transpositions of `util/v4`, `v8`, `v16` (portable); `advance_b`, `advance_e`, `vacuum_advance_e`, `compute_curl_b`, `vacuum_compute_curl_b`, `clean_div_b` pipelines v4/v8/v16 | C79, C80, C81 |
| `Simd/Parts*`, `Simd/Reduce*` | `center_p`, `uncenter_p`, `energy_p`, `hydro_p`, `reduce_array` pipelines v4/v8/v16, `load_interpolator_pipeline_v4` | C84, C85 |
| `Threads` | whole runs of `vpic/initialize.cc` and `vpic/advance.cc` with any boundaries, with sorting, the push in the computed fields and the removal of left-over particles; compared for two numbers of pipelines, and for a run and its restart from checkpoint files (`Restart`) | C86, C87, C88 |
| `Single` | `collision/unary.cc`, `collision/langevin.cc`, `collision/pipeline/unary_pipeline.cc`, `langevin_pipeline.cc`; the collision functions of the user are arbitrary | C89 |
| `Normal` | `frandn`, `drandn`, `frande`, `drande` and the fill functions, `util/rng/rng.cc`; the literals of `frandn_table.cc`, `drandn_table.cc` (`Data`, generated by tools/gen_zig.py); raw numbers are ideal, arithmetic exact | C90 |
| `Global` | the same runs in a periodic box (`Threads`), compared with a particle-in-cell code on one mesh without ranks (`Spec`, `RunSpec`) and so for two decompositions; the same run moved by any number of cells (`Shift`) or with its charge divided differently among particles (`Sources`); uniform fields (`Uniform`); opposite charges (`Conj`), exchanged axes (`Fork`, `Perm`), mirrored axes (`Mirror`) | C91, C92, C101–C104, C106–C108 |
| `Region` | the macros of `deck/wrapper.h` that set materials, fields, boundary conditions and emitters on regions | C93–C100 |
| `Inject` | `vpic/misc.cc` and `vpic/vpic.h` (`inject_particle…`), `emitter/child_langmuir.cc`, geometry of `grid/partition.cc` | C58–C60 |
| `Collision` | `collision/pipeline/binary_pipeline.cc`, `takizuka_abe_pipeline.cc`, `hard_sphere.cc`, `large_angle_coulomb.cc` | C53–C57 |
| `Rng` | `util/rng/*` (conversions, buffer, SFMT recursion, seeds, period certification, permutation, shuffle, ziggurat index) | C41–C45, C65 |
| `Dispatch` | `util/pipelines/pipelines_thread.cc`, `pipelines_serial.cc`, `pipelines_exec_omp.h` (`Kinds`) | C36, C37, C105 |
| `Turnstile` | `util/mp/mp.h` (`BEGIN_TURNSTILE`) | C50 |
| `Util` | `util/util_base.cc`, `util/swap.h`, `util/bitfield.h`, `util/mp/DMPPolicy.h` buffers | C46–C49, C51 |
| `Registry` | id lists of species, materials, boundary handlers, emitters, collision operators | C52 |
| `Checkpt` | `util/checkpt/checkpt.cc`, `checkpt.h`, checkpoint/restore functions of 24 classes | C38–C40 |
| `Dump` | `vpic/dump.cc` (`field_dump`, `hydro_dump`, `dump_fields`, `dump_hydro`, `dump_particles`, `dump_grid`), the bytes of these files (`Bytes`, with `dumpmacros.h`), their names (`Names`), `global_header` and the lists of variables (`Header`), `dump_energies`, `dump_species`, `dump_materials` (`Text`) | C61, C62, C109–C112 |
| `Modify` | `vpic/misc.cc` (`modify`), with the parts of `fgets` and `sscanf` it uses | C113 |
| `Vector` | `util/v4/v4_{sse,avx,avx2,neon,portable}.h`, `util/v8/v8_{avx,avx2,portable}.h`, `util/v16/v16_{avx512,portable}.h`: all functions that move words (transcriptions `V*.lean` made by `tools/gen_vector.py`, one lemma each `FactsV*.lean` made by `tools/gen_vector_facts.py`); layout of fields, particles, interpolators, materials; all operators and functions that compute (transcriptions `LV*.lean` and facts `LOps.lean` made by `tools/gen_lanes.py`, lanes in `Lane.lean`, specification `LaneSpec.lean`, theorems `LaneProps.lean`) | C114, C115, C116 |
| `Poynting` | `vpic/diagnostics.cc` | C117 |
| `Collide` | `collision/collision.cc` (`apply_collision_op_list`), `takizuka_abe.cc`, `binary.cc` (`apply_*`), both pipelines with the particle arrays as memory, put together from `Collision` and `SortP` | C118, C119 |
| `Profile` | `util/profile/profile.{h,cc}` (`TIC`/`TOC`, `update_profile`), the timed blocks of `vpic/advance.cc` | C120 |
| `Uniform` | `vpic/vpic.h` (`uniform`), rounding to double precision | C121 |
| `Place` | `vpic/misc.cc` (placement of `inject_particle`), `grid/partition.cc` (ends of the domains), with rounding to double and single precision | C122 |
| `Streak` | `species_advance/standard/move_p.cc` (offsets and displacements of the portable version) and `species_advance/standard/pipeline/advance_p_pipeline.cc` (displacement and new position of the portable version), with rounding to single precision; `sqrtf` is any function with its relative error | C123 |
| `Flow` | `species_advance/standard/pipeline/advance_p_pipeline.cc` (`ACCUMULATE_J`) and `species_advance/standard/move_p.cc` (`accumulate_j`), portable versions, `species_advance/standard/rho_p.cc` (`accumulate_rho_p`), `sf_interface/pipeline/reduce_array_pipeline.cc` and `unload_accumulator_pipeline.cc` (the sums), with rounding to single precision | C124, C125, C132 |
| `Drift` | `field_advance/standard/pipeline/advance_b_pipeline.h` and `.cc`, `vacuum_advance_e_pipeline.h` and `.cc` (the updates of the portable versions), `compute_div_b_err_pipeline.cc`, `clean_div_b_pipeline.h`, `vacuum_compute_div_e_err_pipeline.h`, `vacuum_clean_div_e_pipeline.h` (the stencils), with rounding to single precision | C126, C129, C133 |
| `Gyro` | `species_advance/standard/pipeline/advance_p_pipeline.cc` (interpolation, kicks and magnetic rotation of the portable version), `sf_interface/pipeline/interpolator_array_pipeline.cc` (portable), `species_advance/standard/pipeline/energy_p_pipeline.cc` (portable), `field_advance/standard/pipeline/vacuum_energy_f_pipeline.h` and `.cc`, with rounding to single and double precision | C127, C128, C130, C131 |
| `Step` | `vpic/advance.cc`, `deck/main.cc` main loop | C63 |

## 4. How each property is proved

| id | proof |
|----|-------|
| C01 | boundary = round-half-up of `K·p/P` up to rounding; monotone, end points exact; telescoping union |
| C02 | linear index ↔ (x,y,z) bijection, walk = successor, then C01 |
| C03 | div/mod inverse |
| C04 | case analysis per face, cyclic arithmetic; position in the global mesh as the specification |
| C05 | div/mod inverse, mod arithmetic |
| C06–C08 | counting sort over segments refines to `flatMap (filter)`; stability and uniqueness of the stable sort; partition = prefix sums |
| C09 | invariant and measure of the cycle-leader loop |
| C10 | segment offsets are monotone; invariant over all interleavings |
| C11, C14 | induction over the movers in reverse |
| C12, C13 | multiset bookkeeping on a network of ranks; buffers sized from the number of movers |
| C15, C16 | induction over face crossings; polynomial identities per segment; node sums |
| C17–C19 | field identities |
| C20–C22 | ring identities, induction over particles |
| C23 | ring identities; loop walk = enumeration of the voxels |
| C24, C25 | ring identities on the stencils, induction over steps; ghost contract from the exchange theorems |
| C26 | the update lists have no duplicates, are disjoint and cover; steps commute, so every interleaving gives the simultaneous update |
| C27 | zero case directly; contraction by summation by parts on a periodic box over all ranks |
| C28, C29, C64 | weight sum identity; sum over the partition |
| C30–C32 | per-axis pass lemma on a Cartesian array of ranks, composition over three axes; copies = positions that agree in the global mesh |
| C33 | case analysis over sides and codes |
| C34, C35 | passes of at most nine arrays add up to the sum; coverage |
| C36, C37 | inductive invariant of the transition system; ranking argument under weak fairness |
| C38–C40 | round trip by induction on the stream; registry invariant over histories |
| C41–C45, C65 | bit and integer reasoning, GF(2) parity, list induction |
| C46–C51 | arithmetic, list induction, transition system (C50) |
| C52 | invariant over appends |
| C53–C57 | arithmetic on raw draws, counting of pairs, vector identities |
| C58–C60 | arithmetic, case analysis, induction over emissions |
| C61–C63 | list arithmetic; log of tasks |
| C66–C68 | as C25, as C26, as C12 |
| C69 | weak form: charge and divergence summed with node weights that agree on the copies of a node; each phase of the step keeps the sum; weights that are one on the copies of one node and zero elsewhere then give the pointwise statement |
| C70 | a bound on the number of faces a displacement can still cross: at most one per axis at the Courant limit, each stop of `move_p` and each exchange uses one up |
| C71 | each operation on the ranks is shown to compute the textbook formula on the global torus (`Torus.Spec`), ghosts included; induction over the list of operations |
| C72 | `div curl = 0` on the torus, the continuity equation of C69 and the update of C71 combined give invariance of the reported error in one step; induction over the steps. The setting (`Ready`) is itself an invariant (`ready_kept`), and runs of any length exist (`steps_run`) |
| C73 | the value local_ghost_tang_b writes is related to the field two half advances of B earlier; the one-way wave equation is stated with no reference to the model |
| C74 | the curl on the torus is its own adjoint up to a shift (summation by parts), so the cross terms of the two halves of the leap-frog cancel; sums over ranks are turned into sums over the torus by the partition of cells |
| C75 | the curl is bounded by the inverse squared cell lengths, so the conserved energy of C74 lies between (1-f^2) times and one times the plain energy; induction over the steps. `courant_length` ignores axes of one cell, as the curl does |
| C76 | the differential equation is stated with `HasDerivAt` over the reals; existence by a formula, uniqueness because a product has zero derivative; the table by induction over the list |
| C77 | the proof of C74 with the permittivity `(1+decay)/(2 drive)`, for which the update of E splits into a difference of squares and a square; induction over the steps |
| C78 | rescaling of the three components of E and of the three cell sizes, with the middle one of the ratios mu/eps, turns the anisotropic curl into the isotropic one of C75 with total `cg2` |
| C79 | a block of lanes equals the sequence of scalar pushes of its lanes: deposits of lanes and movers commute because they only add to the accumulators; refinement of interleavings (`runs_refine`: coarser steps, same order) |
| C80 | per-pass comparison of the two streak choices; the invariant "not on the face the zero displacement points to" is kept by the loop; the excluded states are shown to fail by induction over the passes |
| C81 | a block loads everything before it stores, and different lanes are different voxels, so it equals the sequence of the scalar updates of its lanes; interleavings of blocks refine to interleavings of updates; shares are multiples of 16 long, so no voxel is left over; results of the scalar kernels are unique (C23 ff.) |
| C82 | `initialize` and `advance` as sequences of the kernels on all ranks; `compute_rhob` makes the error zero at each node, `compute_curl_b` makes `tca` a curl so that its divergence vanishes; cleaning with zero error changes nothing; synchronisation averages equal copies; induction over the calls with C72's step |
| C83 | the sum over all cells of the squared divergence of B is kept by the step, by cleaning of E and by synchronisation of agreeing copies, and cleaning of B does not increase it (C27); what is printed is a monotone function of it |
| C84 | as C79 and C81; the three groupings of the fourteen moments add the same numbers to the same entries; sums of lanes are sums of particles |
| C85 | a block of the reduction reads private copies that nobody writes, so it equals the sequence of its elements; the shares of the vector pipelines together are the elements up to the last whole vector; the scalar proof (C34) for any block size |
| C86 | the result of a call is a function of the pushes of the single particles: movers of the pipelines are in the order of the particles and coalesced in that order, currents add up; shares of movers are at least as long as shares of particles when there is room |
| C87 | each kernel has at most one result for all pipeline counts and schedules (uniqueness lemmas in `Threads/Fields.lean`); sorting is stable, hence unique; exchange and removal depend on the used part of the storage only (`SameSp`); simulation relation `Same` kept by `initialize` and by each call of `advance`, induction over the calls |
| C88 | the restored objects contain the saved bytes (C38), so decoded particles and movers agree in the used part of the storage, fields, interpolators and accumulators everywhere; `Same` does not mention what was not saved, and C87 shows that it is kept by all further steps |
| C89 | a pipeline touches its share of the particles and its generator only, so `runs_footprint` gives the result share by share; the laws by convolution of normal distributions (Mathlib) and induction on the number of applications |
| C90 | a trip of the loop, integrated over its raw numbers, accepts with density proportional to the bell curve: strips of equal area tile it (`tripI_accept`); the shift of an infinite product measure is measure preserving (`lintegral_stream`), so trips chain to a geometric series (`measure_within`) and calls to a product (`fill_normal`). Exact tables exist by continuity in the place of the tail (`exact_table_exists`). The entries of the tables are checked by the kernel with proved bounds of the exponential series (`okTable_sound`); for a table that is close to exact the density of a trip follows the bell curve within a share (`Near.density`), and so does the law of the result (`returns_eq`, `randn_near`) |
| C91 | the particles of all ranks plus the unfinished movers, lifted to the global mesh with the rest of their walk, are an invariant of the exchange (`Walk`, `Exchange`); three rounds finish every walk (C12), so what remains is the result of `push`; currents likewise, summed over ranks (`Sums`, `Moved`) |
| C92 | refinement: each kernel on the ranks is a formula on the global mesh (C71 and `Torus/RunLemmas`), interpolators and charge density are those of the box (`Load`), synchronised currents are those of the summed accumulators (`Current`), the printed errors are means over the sites (`Rms`); induction over cleaning rounds and calls of `advance` (`Run`). The box run is deterministic (`boxCycles_det`), so all decompositions agree |
| C93, C94, C96 | the loops, with a running pointer as in the code, are a fold over the boxes of cells (`sweepAll_eq`); each step touches its own voxel only (`foldl_own`); the region tests are compared with the places of the staggered mesh (`Spec`) |
| C95 | as C94; the negation in general |
| C97 | a place has the same position modulo the box on all ranks and decompositions (`spot_same`) |
| C98 | as C93, for six entries per cell |
| C99 | invariant of the loop of `move_p`: after C98 the table leads from a cell to a cell on the same side only. `periodic_joins` from C01 |
| C100 | both passes are folds over the same list (`count_then_fill`), component numbers are injective |
| C101 | the step of the box without ranks (C92) commutes with the shift (`boxCycle_ahead`, `boxBegin_ahead`); with `run_in_box` for both runs |
| C102 | `run_in_box`, and `push` of the specification keeps the weight (`push_w`) |
| C103 | the push is proportional to charge times weight in the current and free of it in the motion (`push_charge`); the charges, a finitely supported function of ratio, cell, place and momentum, are moved by a function (`charges_move`) and determine current and density |
| C104 | on the box without ranks (C92): uniform fields are a fixed point of the field step without current; the walk ends at the place of the straight line modulo the box (`walk_place`), induction over the steps |
| C105 | OpenMP team as any assignment of pipelines to threads with any interleaving; splitting a thread into its jobs and permuting threads keep executions (`runs_split`, `runs_perm`), the host is appended last (`runs_then`) |
| C106 | on the box without ranks (C92): every part of the field step is odd, push and walk are unchanged (`Conj`); induction over the steps |
| C107 | on the box without ranks: fields by the two parities of a permutation (`Perm`); the walk of the mover is one of the walks that may take any nearest face, and those form a diamond, so all give the same result in the same number of passes (`Fork`); induction over the steps |
| C108 | on the box without ranks: each member is mirrored about its place in the cell, so differences to the next and previous cell change sign with the axis (`diff_next`, `diff_prev`); the walk by `Fork` as for C107; induction over the steps |
| C109 | a reader written from the format alone (`BytesSpec`), which finds the byte order from the magic number; each piece is read back exactly and no proper prefix of it is accepted (`Exact`), a property that sequences keep (`Exact.bind`); the amount of data that each dump writes (`field_amount`, `hydro_amount`, `whole_amount`) is what the reader expects |
| C110 | printed decimals are injective and contain no separators (`dec_inj`, `dec_not`), so names are taken apart from the end (`last_part`) |
| C111 | filter of a concatenation of whole groups (`filter_groups`), for every selection; counterexamples for single components and materials |
| C112 | files as lists of lines (`IsFile`), induction over the series of calls; splitting undoes joining |
| C113 | relation between a line and a value (`Says`), induction over the lines; the last one wins |
| C114 | specifications by row and lane (`Vector/Spec.lean`); the instructions are total functions on symbolic registers, so each register function is evaluated by the kernel on variables; stores by a lemma on lists of writes to distinct addresses (`puts_spec`) |
| C115 | addresses of records modulo the width of a register; the loads of C114 are defined if and only if all rows are aligned |
| C116 | each operator is evaluated by the kernel on symbolic registers and is the same word function in each lane; the word functions agree with the specification by bits (`getLsbD`), order of words = order of values by strict monotonicity of the magnitude, Newton steps by field arithmetic |
| C117 | words that were not written are `none`; loops by induction over the rows, the nested loop fills exactly the array; sum over ranks by induction |
| C118 | one step of the voxel loop changes only the block of its voxel, keeps tags and weights up to order and conserves momentum and energy for equal weights (`Step`); blocks of different voxels are disjoint (C06), stripes visit each voxel once (C56), so a sweep acts voxel by voxel (`Sweep`); translated to the lists of particles per voxel (`Effect`), which compose over the list of operators |
| C119 | the result as a function of the deciding numbers is a binary tree of comparisons with thresholds (`Tree`); its average equals the iterated integral (`mean_tree`); at each node the average does not grow; trees are composed over collisions, voxels and pipelines |
| C120 | invariant by induction over the history from its end: a timer holds the sums since the last update and the totals before it; the rows are read off the invariant; the counts by comparing, segment by segment, the blocks of a step with the tasks of the step model of C63 |
| C121 | rounding to nearest is monotone, idempotent, exact for 53 bits and has an error of half a unit; the first term is less than its share of the upper bound because the bounds differ by at least a unit, and the other way round; witnesses by evaluation in the kernel |
| C122 | rounding is monotone and exact for whole numbers, so that the rounded quotient is at most 1 and the scaled position at most the number of cells; the part behind the point is exact; the ends of neighbouring domains are the same expression, so that some domain contains the position (discrete intermediate value), and they do not decrease because the rounding error is less than half the width of a domain |
| C123 | neighbouring numbers of single precision differ by at least a unit, so that a face whose rounded distance is not reached is at least two displacements away, and some displacement is left after a streak shorter than the whole; the rounded distance is off by at most half a unit of 1, the product by another unit only below 1; both directions by symmetry of the rounding; witness by evaluation in the kernel. Two faces: an offset is outside after the first streak only if its displacement is above 1/16 and the streak above 1/8, so that the negative second streak is short against what is left of every displacement. Displacement: six roundings on either side of the quotient by the root, of which only the relative error is used |
| C124 | the shares along a straight piece are quadratic, their mean is an integral over it; absolute errors in units of 2^-24 of the charge times the displacement through each operation, relative ones through the product of the correction |
| C125 | the rounded product with an offset is at most the other factor, so that a half is never negative; absolute errors double in each direction; eight updates at distinct nodes; induction over the particles by monotonicity of the rounding |
| C126 | error of one update from those of its five operations; the curl has no flux, so that only the errors of the six faces of a voxel remain; induction over the half steps |
| C127 | errors of the coefficient and of the two cross products in units of the largest component, with the product of tangent and field kept in the denominator so that strong fields need no separate case; the exact rotation keeps the length; induction over the steps |
| C128 | error of the coefficients and of the two nested linear forms in units of the largest field; the exact rotation is linear and keeps lengths, so that the error of the first kick is passed on without growth |
| C129 | error of one update from those of its operations; the curl has no flux out of a dual voxel, so that current and errors of its six edges remain; induction over the steps |
| C130 | the form u²/(1+gamma) has no cancellation, so that relative errors multiply; the root is compared through squares over the reals; induction over the particles for the sums in double precision |
| C131 | sums of nonnegative terms, so that relative errors do not grow by addition; induction over voxels and pipelines |
| C132 | a predicate for what n roundings can do to a sum with given sum of absolute values, closed under rounded addition; induction over the deposits of a slot and over the passes of the reduction |
| C133 | the predicate of C132 for n roundings of a sum, applied to the stencils of the divergences and of the cleaning passes; a reported divergence that is the same everywhere is a fixed point of a pass |

## 5. Where the code does not have the property

When the code violates a property, the negation is proved with a concrete witness (or in general) and the
part that does hold is proved, with `_partial` in its name if it is short of the English statement.

| what | theorem |
|------|---------|
| The pipeline sort never writes the last entry of the partition table | `SortP.sort_partition_end_untouched` |
| Sorting stops with an error above 256 pipelines although 272 are allowed | `SortP.sort_fails_above_256` |
| The size of an aligned allocation wraps near 2⁶⁴ | `Util.malloc_aligned_wraps` |
| `BitField::bitsset` shifts by the mask instead of testing it | `Util.bitsset_wrong` |
| Message buffer checks accept one port too many, and growth overflows an `int` | `Util.size_buffer_off_by_one`, `Util.size_buffer_overflow` |
| A turnstile of zero entries hangs | `Turnstile.zero_turnstiles_hang` |
| Appending the last boundary handler or collision operator again makes the list circular | `Registry.append_bc_twice`, `Registry.append_cop_twice` |
| `--dispatch_to_host` of two or more makes `wait` hang | `Dispatch.dispatch_to_host_hangs` |
| `shuffle` is biased | `Rng.shuffle_two_biased` |
| The ziggurat index of `drandn`/`frandn` wraps at the top entry | `Rng.ziggurat_wraps` |
| `randperm` overflows an `int` for 2³¹−1 elements | `Rng.randperm_overflow_example` |
| Binary collisions select a particle of another voxel from 65536 particles per voxel on | `Collision.pair_outside`, `Collision.select_safe_iff` |
| Array reduction overflows an `int` index for large meshes | `SfInterface.reduce_overflow`, `SfInterface.reduce_hydro_overflow` |
| `advance_b` creates a divergence next to a `symmetric_fields` wall | `Field.div_b_changes_at_symmetric_wall` |
| An axis with one cell per rank and several ranks has no derivative | `Torus.one_cell_slabs_differ` |
| The warning about magnetic conductivity has a `%s` without argument (undefined behaviour) | `Material.magnetic_undefined` |
| Vector `move_p`, particle exactly on the upper face of its cell with zero displacement along that axis: on a reflecting wall the loop never ends (portable `copysign`), on an absorbing or custom wall the particle is handed to the wall. The scalar version does neither. | `Simd.vector_move_p_hangs`, `vector_move_p_departs`, `vector_move_p_differs` |
| The error returned by `synchronize_tang_e_norm_b` ignores the damping term | `Field.error_ignores_damping_term` |
| A truncated checkpoint is not noticed; object ids wrap to 0; a pointer to the object itself is stale after a restore, a pointer to a later one cannot be restored | `Checkpt.truncation_undetected`, `id_wraps`, `self_pointer_stale`, `later_pointer_unrestorable` |
| `inject_particle` with an age and a full mover list warns and then writes past the storage; `inject_particle_raw` has no checks | `Inject.inject_overruns_movers`, `Inject.inject_raw_overruns` |
| `child_langmuir` overwrites the weight while aging, so later particles of a face differ | `Inject.emitted_weights_differ` |
| A strided dump with stride one along some axis loses the last plane of that axis | `Dump.mixed_stride_wrong` |
| Banded dumps of the material words read past the array; spare selection bits use uninitialised memory | `Dump.field_materials_undefined`, `Dump.spare_bit_undefined` |
| Interleaved moment dumps have no boundary and hold the wrong cells with stride one | `Dump.hydro_interleave_wrong` |
| `langevin` accepts a generator pool smaller than the number of pipelines and then reads past it | `Single.langevin_small_pool_undefined` |
| The Langevin bath has variance kT/(m c) where the other operators use kT/(m c²): wrong temperature unless cvac = 1 | `Single.langevin_temperature` |
| The global header announces single components as nothing or as the whole vector, and materials with two bytes instead of four | `Dump.component_not_announced`, `Dump.materials_misannounced` |
| The header of a dump keeps only 32 bits of the step | `Dump.long_step_lost` |
| Long directory and base names overflow the file name of `field_dump` for large steps | `Dump.names_overflow` |
| `dump_species` writes no line breaks, so all species are in one line | `Dump.species_one_line` |
| The name `num_steps` that `modify` documents is silently ignored; the rest of a line of more than 126 characters is taken for a line | `Modify.documented_name_ignored`, `Modify.long_line_split` |
| The NEON version of `load_4x8_tr` ignores two of its four pointers and that of `store_4x8_tr` scrambles the words (`vuzp` for `vzip`); no pipeline calls them | `Vector.neon_load_4x8_tr_wrong`, `Vector.neon_store_4x8_tr_wrong` |
| The AVX-512 versions of `load_16x2_tr`, `load_16x3_tr`, `load_16x4_tr` load 64 aligned bytes, but the field pipelines and `energy_p` for sixteen lanes pass addresses of members of records of 80 or 32 bytes, so no setting of the voxels makes them defined | `Vector.fields_16_undefined`, `Vector.field_row_16_undefined`, `Vector.energy_16_undefined` |
| `clear_bits` of the NEON version computes `m & ~a` instead of `a & ~m` (operands of `vbic` exchanged); no pipeline calls it | `Vector.clear_wrong` |
| `!=`, `&&`, `||` of `v8float` on AVX and AVX2 use an ordered comparison: NaN is not unequal to itself, unlike in C and all other versions | `Vector.ordered_wrong` |
| `!` of a float vector in the portable, NEON and AVX-512 versions tests the bits: minus zero is not zero; `copysign` in the portable and NEON versions compares with zero and so ignores the sign of minus zero; unary minus on x86 is `0 - a`, so the opposite of zero has no sign | `Vector.not_wrong`, `Vector.copySign_wrong`, `Vector.opposite_wrong` |
| `poynting_flux` clears its array with the number of words for the number of bytes (`memset(pvec, 0, stride)`), so ranks that are not at the left side add memory that was not written; with one cell across it divides by zero | `Poynting.flux_undefined`, `Poynting.flux_flat` |
| The legacy sort (`USE_LEGACY_SORT`) records that it sorted but returns before it writes the partition table when a species has no particles; a collision operator then reads the table of an earlier sort (or memory that was never written) and collides particles that no longer exist | `Collide.legacy_empty_stale`, `Collide.legacy_sort_not_ok` |
| The timing table counts `accumulate_rho_p` once too little in each step that cleans the electric field: `advance.cc:145` passes `species_list->id`, which is the number of species less one; with one species its row is missing in a restored run although its time is in the total | `Profile.rho_miscounted`, `Profile.rho_row_missing` |
| The ends of the domains are kept in `float`, positions to inject in `double`: if the end of the box is not of single precision, a particle between the rounded and the given end is silently injected by no rank (a box of length 1 + 2^-30 and the position 1 + 2^-31, with any number of ranks) | `Place.inject_lost` |
| `move_p` puts a particle exactly on the face it crosses, but if it reaches two faces at once the other offset can be rounded to 1 + 2^-23; boundary handlers and other ranks then get a particle outside of its voxel (the rest of the movement puts it back on the face) | `Streak.handed_over_outside` |
| `accumulate_rho_p` sums the density of a node in single precision: at a node that holds 2^28 times the share of a particle further particles, however many, add nothing | `Flow.rho_stalls` |
| `update_profile` guards the time since the last update against zero, but not the total: a table after blocks that took no time by the clock converts 0/0 to `int` | `Profile.profile_undefined` |
| `uniform(rng, low, high)` is documented to return numbers of the open interval; it returns the bounds themselves for single raw numbers when the interval does not contain zero (1 and 2 for the interval from 1 to 2), and can leave the interval when the bounds are equal | `Uniform.uniform_ends`, `Uniform.uniform_outside` |
| The loop counter of `dump_particles` overflows above 2³¹−32768 particles | `Dump.dump_particles_overflows` |
| `set_region_field` evaluates the equations one cell too far (`_x0 + _dx*_i`), a field without divergence gets one | `Region.region_field_misplaced`, `Region.region_field_divergence` |
| `set_region_material` with `leave_unchanged` for the interior gives the interior the material of the surface | `Region.region_interior_not_left` |

Seen while reading, not turned into theorems: the absorbing extrapolation in `local_ghost_norm_e` reads the
ghost of the opposite side when there is one cell; the ghost exchange of normal E covers `e` but not `tca`;
`compute_rms_div_b_err` scales by `eps0`; `np = nk*(nk+1)>>1` of the binary operator overflows for more than
46340 particles per voxel; Takizuka–Abe gives NaN for equal momenta and zero deviation; the products
`rank*h_size` and `na*nfloats` are `int`; `checkpt_standard_field_array` saves `n_mc` of the `n_mc+2`
coefficients; the `nn <= rangem` test of `boundary_p` is off by one without effect; `boundary_p`'s message
size overflows above 44.7 million movers; the error message of `restore_serial` swaps its arguments;
`DumpParameters` starts with all bits set and only ORs, so it always selects everything; `clean_div_*` on a
mesh of one cell divides by zero; `set_point_region_bc` lacks semicolons and cannot be compiled; component numbers of emitters
overflow from 2²⁶ voxels on; regions are evaluated at ghosts without wrapping, so in a periodic box they must be periodic.

## 6. Testing the theorems

`seeded/mutants.jsonl` lists wrong programs: an edit of one model definition each, in the way a
programming mistake would change it.  `tools/mutate.py` applies each in a scratch copy outside of
`/verif`, rebuilds, and appends the result to `seeded/LOG.jsonl`: which declarations fail.  An edit that
makes the English claim false while everything still builds shows that a theorem is too weak; it is then
tightened and the entry says how.  In entries before M595 a proof that failed by running out of time may be listed under the name of the
declaration before it, because the error is then reported at its comment; the edits M595 to M603 were rebuilt with the two modules of C133 only.

## 7. Not modelled

MPI implementation, file I/O layer (`util/io`, `RelayPolicy`), input decks other than the region macros, parallel I/O formats,
floating-point error of the physics kernels other than displacement, current, interpolation and momentum of the portable pusher, the charge density, the fields in vacuum, the divergences and their cleaning, and the energies of particles and fields (C123–C133), integer division, remainder, shifts and increments and the `math.h` functions other than `sqrt`, `fabs`, `copysign` of the vector classes and all of the Altivec version,
Fortran/Cray specific paths, weak memory models.  Simplifications inside of modelled functions are stated at
each definition.
