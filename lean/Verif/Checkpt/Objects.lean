import Verif.Checkpt.Props

/-!
# The checkpoint and restore functions of the objects

What `CHECKPT_*` calls the checkpoint function of every class of objects makes and what `RESTORE_*` calls the restore function
makes.  Structures are regions of memory; where the restore functions look at fields that they have read, the offsets of these
fields are parameters.  Pointers to blocks that the restore functions store in the structures are not represented (what a
restored object contains is the list of what was read).
-/
namespace Verif.Checkpt

/-- The `int` with these four bytes. -/
def toInt (b : List Byte) : ℤ := if deLE b < 2 ^ 31 then deLE b else deLE b - 2 ^ 32

/-- `CHECKPT_VAL( int, … )`, /repo/src/util/checkpt/checkpt.h:295-299. -/
def int4 (v : ℤ) : List Byte := le 4 (v % 2 ^ 32).toNat

/-- A block of memory: whether the pointer is `NULL`, the bytes. -/
structure Region where
  null : Bool
  mem : ℕ → Byte

/-- An `int` in a block. -/
def intAt (mem : ℕ → Byte) (off : ℕ) : ℤ := toInt ((List.range 4).map fun i => mem (off + i))

/-- A pointer in a block. -/
def ptrAt (mem : ℕ → Byte) (off : ℕ) : ℕ := deLE ((List.range 8).map fun i => mem (off + i))

/-- `CHECKPT_ALIGNED` and `CHECKPT` of `n` bytes in total, checkpt.h:290-293, 301. -/
def checkptAligned (r : Region) (n align : ℕ) : Item := .data ⟨r.null, n, n, 1, 1, align, r.mem⟩

/-- The number of processes, the rank of this one, the numbers of pipelines, `world_size`, `world_rank`, `serial.n_pipeline`,
`thread.n_pipeline`. -/
structure Config where
  rank : ℤ
  size : ℤ
  nSerial : ℤ
  nThread : ℤ

/-- `aa_n_pipeline` and `ha_n_pipeline`, /repo/src/sf_interface/accumulator_array.cc:13-29, hydro_array.cc:13-29 (pthreads). -/
def Config.nPipeline (c : Config) : ℤ := if c.nSerial < c.nThread then c.nThread else c.nSerial

/-- Sizes of structures and offsets of the fields the restore functions look at. -/
structure Layout where
  szMp : ℕ
  mpNPort : ℕ
  szReq : ℕ
  szRng : ℕ
  szPool : ℕ
  poolN : ℕ
  szGrid : ℕ
  gridRange : ℕ
  gridNeighbor : ℕ
  szMaterial : ℕ
  szSpecies : ℕ
  szFa : ℕ
  szField : ℕ
  szParams : ℕ
  szMc : ℕ
  szIa : ℕ
  szInterp : ℕ
  szAa : ℕ
  aaN : ℕ
  szAcc : ℕ
  szHa : ℕ
  haN : ℕ
  szHydro : ℕ
  szBc : ℕ
  szEmitter : ℕ
  szCop : ℕ

/-- Spec: the fields are inside of the structures. -/
structure Layout.Ok (L : Layout) : Prop where
  mp : L.mpNPort + 4 ≤ L.szMp
  pool : L.poolN + 4 ≤ L.szPool
  range : L.gridRange + 8 ≤ L.szGrid
  neighbor : L.gridNeighbor + 8 ≤ L.szGrid
  aa : L.aaN + 4 ≤ L.szAa
  ha : L.haN + 4 ≤ L.szHa

/-- The objects of a simulation; `head` of boundary conditions, emitters and collision operators is the base structure. -/
inductive Obj
  | serial (n : ℤ)
  | thread (n : ℤ)
  | collective (rank size : ℤ)
  | mp (r rbuf sbuf rbufSz sbufSz rreqSz sreqSz rreq sreq : Region) (rb sb : ℕ → Region × ℕ)
  | rng (r : Region)
  | rngPool (r rng : Region) (p : ℕ → ℕ)
  | grid (r range neighbor : Region) (nRange nNeighbor mp : ℕ)
  | material (r : Region) (name : Option (List Byte)) (next : ℕ)
  | species (r : Region) (name : Option (List Byte)) (p pm part : Region) (np maxNp nm maxNm nPart g next : ℕ)
  | fieldArray (r f p mc : Region) (nv g nMc : ℕ) (kernel : Fin 17 → ℕ)
  | interpolator (r i : Region) (nv g : ℕ)
  | accumulator (r a : Region) (n g : ℕ)
  | hydro (r h : Region) (n g : ℕ)
  | absorbTally (at_ tally head : Region) (szAt spList fa nSpecies interact delete next : ℕ)
  | maxwellianReflux (mr para perp head : Region) (szMr spList rng nSpecies interact delete next : ℕ)
  | childLangmuir (cl head comp : Region) (szCl sp ia fa aa rng emit delete nComp next : ℕ)
  | langevin (l head : Region) (szL sp rp apply delete next : ℕ)
  | unary (cm head : Region) (szCm : ℕ) (name : Option (List Byte)) (rate coll params sp rp apply delete next : ℕ)
  | binary (cm head : Region) (szCm : ℕ) (name : Option (List Byte)) (rate coll params spi spj rp apply delete next : ℕ)
  | takizukaAbe (cm head : Region) (szCm : ℕ) (name : Option (List Byte)) (spi spj rp apply delete next : ℕ)
  | hardSphere (hs : Region) (sz : ℕ)
  | largeAngle (lac : Region) (sz : ℕ)
  | simulation (r : Region) (sz entropy syncEntropy grid : ℕ) (lists : Fin 9 → ℕ)
  | main (simulation : ℕ)

/-- `checkpt_particle_bc_internal`, /repo/src/boundary/boundary.cc:6-12. -/
def checkptBc (L : Layout) (head : Region) (interact delete next : ℕ) : List Item :=
  [checkptAligned head L.szBc 0, .sym interact, .sym delete, .ptr next]

/-- `checkpt_collision_op_internal`, /repo/src/collision/collision.cc:6-12. -/
def checkptCop (L : Layout) (head : Region) (apply delete next : ℕ) : List Item :=
  [checkptAligned head L.szCop 0, .sym apply, .sym delete, .ptr next]

/-- The checkpoint functions: `checkpt_serial`, `checkpt_thread` (/repo/src/util/pipelines/pipelines_serial.cc:11-14,
pipelines_thread.cc:79-82), `checkpt_collective`, `checkpt_mp` (/repo/src/util/mp/DMPPolicy.h:39-43, 62-74), `checkpt_rng`,
`checkpt_rng_pool` (/repo/src/util/rng/rng.cc:7-10, rng_pool.cc:6-12), `checkpt_grid` (/repo/src/grid/grid_structors.cc:16-22),
`checkpt_material` (/repo/src/material/material.cc:15-20), `checkpt_species`
(/repo/src/species_advance/species_advance.cc:15-29), `checkpt_standard_field_array`
(/repo/src/field_advance/standard/sfa.cc:159-168 and /repo/src/field_advance/field_advance.cc:16-36),
`checkpt_interpolator_array`, `checkpt_accumulator_array`, `checkpt_hydro_array`
(/repo/src/sf_interface/interpolator_array.cc:5-11, accumulator_array.cc:31-41, hydro_array.cc:34-44), `checkpt_absorb_tally`,
`checkpt_maxwellian_reflux` (/repo/src/boundary/absorb_tally.cc:31-39, maxwellian_reflux.cc:180-190),
`checkpt_child_langmuir` (/repo/src/emitter/child_langmuir.cc:143-153, emitter.cc:6-13), `checkpt_langevin`,
`checkpt_unary_collision_model`, `checkpt_binary_collision_model`, `checkpt_takizuka_abe`, `checkpt_hard_sphere`,
`checkpt_large_angle_coulomb` (/repo/src/collision), `checkpt_vpic_simulation` (/repo/src/vpic/vpic.cc:24-38), `checkpt_main`
(/repo/deck/main.cc:24-27). -/
def Obj.items (L : Layout) : Obj → List Item
  | .serial n => [.raw (int4 n)]
  | .thread n => [.raw (int4 n)]
  | .collective rank size => [.raw (int4 rank), .raw (int4 size)]
  | .mp r rbuf sbuf rbufSz sbufSz rreqSz sreqSz rreq sreq rb sb =>
    let n := (intAt r.mem L.mpNPort).toNat
    [checkptAligned r L.szMp 0, checkptAligned rbuf (n * 8) 0, checkptAligned sbuf (n * 8) 0, checkptAligned rbufSz (n * 4) 0,
      checkptAligned sbufSz (n * 4) 0, checkptAligned rreqSz (n * 4) 0, checkptAligned sreqSz (n * 4) 0,
      checkptAligned rreq (n * L.szReq) 0, checkptAligned sreq (n * L.szReq) 0] ++
    (List.range n).flatMap fun port => [checkptAligned (rb port).1 (rb port).2 128, checkptAligned (sb port).1 (sb port).2 128]
  | .rng r => [checkptAligned r L.szRng 128]
  | .rngPool r rngs p =>
    let n := (intAt r.mem L.poolN).toNat
    [checkptAligned r L.szPool 0, checkptAligned rngs (n * 8) 0] ++ (List.range n).map fun k => .ptr (p k)
  | .grid r range neighbor nRange nNeighbor mpp =>
    [checkptAligned r L.szGrid 0] ++ (if ptrAt r.mem L.gridRange ≠ 0 then [checkptAligned range (nRange * 8) 16] else []) ++
      (if ptrAt r.mem L.gridNeighbor ≠ 0 then [checkptAligned neighbor (nNeighbor * 8) 128] else []) ++ [.ptr mpp]
  | .material r name next => [checkptAligned r L.szMaterial 0, .str name, .ptr next]
  | .species r name p pm part np maxNp nm maxNm nPart g next =>
    [checkptAligned r L.szSpecies 0, .str name, .data ⟨p.null, np * 32, maxNp * 32, 1, 1, 128, p.mem⟩,
      .data ⟨pm.null, nm * 16, maxNm * 16, 1, 1, 128, pm.mem⟩, checkptAligned part (nPart * 4) 128, .ptr g, .ptr next]
  | .fieldArray r f p mc nv g nMc kernel =>
    [checkptAligned r L.szFa 0, checkptAligned f (nv * L.szField) 128, .ptr g, checkptAligned p L.szParams 0,
      checkptAligned mc (nMc * L.szMc) 128] ++ (List.finRange 17).map fun k => .sym (kernel k)
  | .interpolator r i nv g => [checkptAligned r L.szIa 0, checkptAligned i (nv * L.szInterp) 128, .ptr g]
  | .accumulator r a n g => [checkptAligned r L.szAa 0, checkptAligned a (n * L.szAcc) 128, .ptr g]
  | .hydro r h n g => [checkptAligned r L.szHa 0, checkptAligned h (n * L.szHydro) 128, .ptr g]
  | .absorbTally a tally head szAt spList fa nSpecies interact delete next =>
    [checkptAligned a szAt 0, .ptr spList, .ptr fa, checkptAligned tally (nSpecies * 4) 0] ++
      checkptBc L head interact delete next
  | .maxwellianReflux mr para perp head szMr spList rngp nSpecies interact delete next =>
    [checkptAligned mr szMr 0, .ptr spList, .ptr rngp, checkptAligned para (nSpecies * 4) 0,
      checkptAligned perp (nSpecies * 4) 0] ++ checkptBc L head interact delete next
  | .childLangmuir cl head comp szCl sp ia fa aa rngp emit delete nComp next =>
    [checkptAligned cl szCl 0, .ptr sp, .ptr ia, .ptr fa, .ptr aa, .ptr rngp, checkptAligned head L.szEmitter 0, .sym emit,
      .sym delete, checkptAligned comp (nComp * 4) 128, .ptr next]
  | .langevin l head szL sp rp apply delete next =>
    [checkptAligned l szL 0, .ptr sp, .ptr rp] ++ checkptCop L head apply delete next
  | .unary cm head szCm name rate coll params sp rp apply delete next =>
    [checkptAligned cm szCm 0, .str name, .sym rate, .sym coll, .ptr params, .ptr sp, .ptr rp] ++
      checkptCop L head apply delete next
  | .binary cm head szCm name rate coll params spi spj rp apply delete next =>
    [checkptAligned cm szCm 0, .str name, .sym rate, .sym coll, .ptr params, .ptr spi, .ptr spj, .ptr rp] ++
      checkptCop L head apply delete next
  | .takizukaAbe cm head szCm name spi spj rp apply delete next =>
    [checkptAligned cm szCm 0, .str name, .ptr spi, .ptr spj, .ptr rp] ++ checkptCop L head apply delete next
  | .hardSphere hs sz => [checkptAligned hs sz 0]
  | .largeAngle lac sz => [checkptAligned lac sz 0]
  | .simulation r sz entropy syncEntropy gridp lists =>
    [checkptAligned r sz 0, .ptr entropy, .ptr syncEntropy, .ptr gridp] ++ (List.finRange 9).map fun k => .fptr (lists k)
  | .main sim => [.ptr sim]

/-- The classes of objects, with a restore function each. -/
inductive Class
  | serial | thread | collective | mp | rng | rngPool | grid | material | species | fieldArray | interpolator | accumulator
  | hydro | absorbTally | maxwellianReflux | childLangmuir | langevin | unary | binary | takizukaAbe | hardSphere | largeAngle
  | simulation | main

/-- The class of an object. -/
def Obj.cls : Obj → Class
  | .serial .. => .serial
  | .thread .. => .thread
  | .collective .. => .collective
  | .mp .. => .mp
  | .rng .. => .rng
  | .rngPool .. => .rngPool
  | .grid .. => .grid
  | .material .. => .material
  | .species .. => .species
  | .fieldArray .. => .fieldArray
  | .interpolator .. => .interpolator
  | .accumulator .. => .accumulator
  | .hydro .. => .hydro
  | .absorbTally .. => .absorbTally
  | .maxwellianReflux .. => .maxwellianReflux
  | .childLangmuir .. => .childLangmuir
  | .langevin .. => .langevin
  | .unary .. => .unary
  | .binary .. => .binary
  | .takizukaAbe .. => .takizukaAbe
  | .hardSphere .. => .hardSphere
  | .largeAngle .. => .largeAngle
  | .simulation .. => .simulation
  | .main .. => .main

/-- A loop of calls of `RESTORE_PTR`. -/
def ptrs : ℕ → Reader → Reader
  | 0, r => r
  | n + 1, r => .ptr fun _ => ptrs n r

/-- A loop of calls of `RESTORE_FPTR`. -/
def fptrs : ℕ → Reader → Reader
  | 0, r => r
  | n + 1, r => .fptr fun _ => fptrs n r

/-- A loop of calls of `RESTORE_SYM`. -/
def syms : ℕ → Reader → Reader
  | 0, r => r
  | n + 1, r => .sym fun _ => syms n r

/-- A loop of calls of `RESTORE_ALIGNED`. -/
def datas : ℕ → Reader → Reader
  | 0, r => r
  | n + 1, r => .data fun _ => datas n r

/-- The restore functions, next to the checkpoint functions. -/
def Class.restore (L : Layout) (c : Config) : Class → Reader
  | .serial => .raw 4 fun b => if c.nSerial ≠ toInt b then .fail else .ret
  | .thread => .raw 4 fun b => if c.nThread ≠ toInt b then .fail else .ret
  | .collective => .raw 4 fun rank => .raw 4 fun size =>
    if toInt size ≠ c.size then .fail else if toInt rank ≠ c.rank then .fail else .ret
  | .mp => .data fun r => datas 8 (datas (2 * (intAt r.mem L.mpNPort).toNat) .ret)
  | .rng => .data fun _ => .ret
  | .rngPool => .data fun r => .data fun _ => ptrs (intAt r.mem L.poolN).toNat .ret
  | .grid => .data fun r =>
    datas (if ptrAt r.mem L.gridRange ≠ 0 then 1 else 0) (datas (if ptrAt r.mem L.gridNeighbor ≠ 0 then 1 else 0) (.ptr fun _ => .ret))
  | .material => .data fun _ => .str fun _ => .ptr fun _ => .ret
  | .species => .data fun _ => .str fun _ => datas 3 (ptrs 2 .ret)
  | .fieldArray => datas 2 (.ptr fun _ => datas 2 (syms 17 .ret))
  | .interpolator => datas 2 (.ptr fun _ => .ret)
  | .accumulator => .data fun r => .data fun _ => .ptr fun _ => if intAt r.mem L.aaN ≠ c.nPipeline then .fail else .ret
  | .hydro => .data fun r => .data fun _ => .ptr fun _ => if intAt r.mem L.haN ≠ c.nPipeline then .fail else .ret
  | .absorbTally => .data fun _ => ptrs 2 (datas 2 (syms 2 (ptrs 1 .ret)))
  | .maxwellianReflux => .data fun _ => ptrs 2 (datas 3 (syms 2 (ptrs 1 .ret)))
  | .childLangmuir => .data fun _ => ptrs 5 (.data fun _ => syms 2 (.data fun _ => ptrs 1 .ret))
  | .langevin => .data fun _ => ptrs 2 (.data fun _ => syms 2 (ptrs 1 .ret))
  | .unary => .data fun _ => .str fun _ => syms 2 (ptrs 3 (.data fun _ => syms 2 (ptrs 1 .ret)))
  | .binary => .data fun _ => .str fun _ => syms 2 (ptrs 4 (.data fun _ => syms 2 (ptrs 1 .ret)))
  | .takizukaAbe => .data fun _ => .str fun _ => ptrs 3 (.data fun _ => syms 2 (ptrs 1 .ret))
  | .hardSphere => .data fun _ => .ret
  | .largeAngle => .data fun _ => .ret
  | .simulation => .data fun _ => ptrs 3 (fptrs 9 .ret)
  | .main => ptrs 1 .ret

/-- Spec: the configuration an object records is the one of the restoring process. -/
def Obj.Compatible (L : Layout) (c : Config) : Obj → Prop
  | .serial n => n = c.nSerial
  | .thread n => n = c.nThread
  | .collective rank size => rank = c.rank ∧ size = c.size
  | .accumulator r _ _ _ => intAt r.mem L.aaN = c.nPipeline
  | .hydro r _ _ _ => intAt r.mem L.haN = c.nPipeline
  | _ => True

/-- Spec: the numbers are `int`s. -/
def Obj.Ints : Obj → Prop
  | .serial n => -2 ^ 31 ≤ n ∧ n < 2 ^ 31
  | .thread n => -2 ^ 31 ≤ n ∧ n < 2 ^ 31
  | .collective r s => (-2 ^ 31 ≤ r ∧ r < 2 ^ 31) ∧ (-2 ^ 31 ≤ s ∧ s < 2 ^ 31)
  | _ => True

/-! ### Lemmas -/

lemma toInt_int4 (v : ℤ) (h1 : -2 ^ 31 ≤ v) (h2 : v < 2 ^ 31) : toInt (int4 v) = v := by
  unfold toInt int4
  rw [deLE_le]
  have e : (v % 2 ^ 32).toNat % 256 ^ 4 = (v % 2 ^ 32).toNat := Nat.mod_eq_of_lt (by norm_num; omega)
  rw [e]
  norm_num at h1 h2 ⊢
  split_ifs <;> omega

lemma int4_length (v : ℤ) : (int4 v).length = 4 := le_length 4 _

lemma sameBlk_intAt {r : Region} {n al : ℕ} {B' : Blk} (h : SameBlk ⟨r.null, n, n, 1, 1, al, r.mem⟩ B') (off : ℕ) (ho : off + 4 ≤ n) :
    intAt B'.mem off = intAt r.mem off := by
  unfold intAt
  congr 1
  apply List.map_congr_left
  intro i hi
  have hi' := List.mem_range.1 hi
  have := h.bytes 0 (by simp) (off + i) (by simp; omega)
  simpa using this

lemma sameBlk_ptrAt {r : Region} {n al : ℕ} {B' : Blk} (h : SameBlk ⟨r.null, n, n, 1, 1, al, r.mem⟩ B') (off : ℕ) (ho : off + 8 ≤ n) :
    ptrAt B'.mem off = ptrAt r.mem off := by
  unfold ptrAt
  congr 1
  apply List.map_congr_left
  intro i hi
  have hi' := List.mem_range.1 hi
  have := h.bytes 0 (by simp) (off + i) (by simp; omega)
  simpa using this

lemma agrees_ptrs (r : Reader) (l : List Item) (h : Agrees r l) : ∀ ps : List ℕ, Agrees (ptrs ps.length r) (ps.map Item.ptr ++ l) := by
  intro ps
  induction ps with
  | nil => simpa [ptrs] using h
  | cons p ps ih => simpa [ptrs, Agrees] using ih

lemma agrees_fptrs (r : Reader) (l : List Item) (h : Agrees r l) :
    ∀ ps : List ℕ, Agrees (fptrs ps.length r) (ps.map Item.fptr ++ l) := by
  intro ps
  induction ps with
  | nil => simpa [fptrs] using h
  | cons p ps ih => simpa [fptrs, Agrees] using ih

lemma agrees_syms (r : Reader) (l : List Item) (h : Agrees r l) : ∀ ps : List ℕ, Agrees (syms ps.length r) (ps.map Item.sym ++ l) := by
  intro ps
  induction ps with
  | nil => simpa [syms] using h
  | cons p ps ih => simpa [syms, Agrees] using ih

lemma agrees_datas (r : Reader) (l : List Item) (h : Agrees r l) :
    ∀ bs : List Blk, Agrees (datas bs.length r) (bs.map Item.data ++ l) := by
  intro bs
  induction bs with
  | nil => simpa [datas] using h
  | cons p ps ih =>
    simp only [List.length_cons, List.map_cons, List.cons_append, datas, Agrees]
    exact fun _ _ => ih

lemma agrees_ports (r : Reader) (l : List Item) (h : Agrees r l) (f g : ℕ → Blk) :
    ∀ (ps : List ℕ), Agrees (datas (2 * ps.length) r) ((ps.flatMap fun p => [Item.data (f p), Item.data (g p)]) ++ l) := by
  intro ps
  induction ps with
  | nil => simpa [datas] using h
  | cons p ps ih =>
    have : 2 * (p :: ps).length = 2 * ps.length + 1 + 1 := by simp; omega
    rw [this]
    simp only [List.flatMap_cons, List.cons_append, List.nil_append, datas, Agrees]
    exact fun _ _ _ _ => ih

lemma agrees_fieldArray (L : Layout) (c : Config) (r f p mc : Region) (nv g nMc : ℕ) (kernel : Fin 17 → ℕ) :
    Agrees (Class.restore L c .fieldArray) ((Obj.fieldArray r f p mc nv g nMc kernel).items L) := by
  have := agrees_syms .ret [] (by simp [Agrees]) ((List.finRange 17).map kernel)
  rw [List.length_map, List.length_finRange, List.append_nil, List.map_map] at this
  have e1 : Class.restore L c .fieldArray = datas 2 (.ptr fun _ => datas 2 (syms 17 .ret)) := rfl
  have e2 : (Obj.fieldArray r f p mc nv g nMc kernel).items L =
    [checkptAligned r L.szFa 0, checkptAligned f (nv * L.szField) 128, .ptr g, checkptAligned p L.szParams 0,
      checkptAligned mc (nMc * L.szMc) 128] ++ (List.finRange 17).map fun k => .sym (kernel k) := rfl
  rw [e1, e2]
  generalize syms 17 .ret = R at this ⊢
  generalize hk : List.map (Item.sym ∘ kernel) (List.finRange 17) = S at this
  have hk' : (List.finRange 17).map (fun k => Item.sym (kernel k)) = S := hk
  rw [hk']
  simp only [checkptAligned, List.cons_append, List.nil_append, datas, Agrees]
  intro _ _ _ _ _ _ _ _ _
  exact this

attribute [local irreducible] ptrAt intAt

lemma agrees_opt (q : Prop) [Decidable q] (B : Blk) (R : Reader) (l : List Item) (h : Agrees R l) :
    Agrees (datas (if q then 1 else 0) R) ((if q then [Item.data B] else []) ++ l) := by
  split_ifs
  · simp only [datas, List.cons_append, List.nil_append, Agrees]
    exact fun _ _ => h
  · exact h

lemma agrees_grid (L : Layout) (hL : L.Ok) (c : Config) (r range neighbor : Region) (nRange nNeighbor mpp : ℕ) :
    Agrees (Class.restore L c .grid) ((Obj.grid r range neighbor nRange nNeighbor mpp).items L) := by
  have e1 : Class.restore L c .grid = .data fun r =>
    datas (if ptrAt r.mem L.gridRange ≠ 0 then 1 else 0) (datas (if ptrAt r.mem L.gridNeighbor ≠ 0 then 1 else 0) (.ptr fun _ => .ret)) := rfl
  have e2 : (Obj.grid r range neighbor nRange nNeighbor mpp).items L =
    [checkptAligned r L.szGrid 0] ++ (if ptrAt r.mem L.gridRange ≠ 0 then [checkptAligned range (nRange * 8) 16] else []) ++
      (if ptrAt r.mem L.gridNeighbor ≠ 0 then [checkptAligned neighbor (nNeighbor * 8) 128] else []) ++ [.ptr mpp] := rfl
  rw [e1, e2]
  simp only [checkptAligned, List.cons_append, List.nil_append, List.append_assoc, Agrees]
  intro B' hB
  rw [sameBlk_ptrAt hB _ hL.range, sameBlk_ptrAt hB _ hL.neighbor]
  generalize ptrAt r.mem L.gridRange = x
  generalize ptrAt r.mem L.gridNeighbor = y
  have h1 : Agrees (.ptr fun _ => .ret) [.ptr mpp] := by simp [Agrees]
  have h2 := agrees_opt (y ≠ 0)
    ⟨neighbor.null, nNeighbor * 8, nNeighbor * 8, 1, 1, 128, neighbor.mem⟩ _ _ h1
  have h3 := agrees_opt (x ≠ 0) ⟨range.null, nRange * 8, nRange * 8, 1, 1, 16, range.mem⟩ _ _ h2
  exact h3

/-- C38: the restore function of every class reads what its checkpoint function writes. -/
theorem restore_agrees (L : Layout) (hL : L.Ok) (c : Config) (o : Obj) (hi : o.Ints) (hc : o.Compatible L c) :
    Agrees (o.cls.restore L c) (o.items L) := by
  cases o with
  | serial n =>
    simp only [Obj.Compatible] at hc
    subst hc
    have e := toInt_int4 _ hi.1 hi.2
    simp only [Obj.cls, Class.restore, Obj.items, Agrees, int4_length, true_and, e, ne_eq, not_true, if_false]
  | thread n =>
    simp only [Obj.Compatible] at hc
    subst hc
    have e := toInt_int4 _ hi.1 hi.2
    simp only [Obj.cls, Class.restore, Obj.items, Agrees, int4_length, true_and, e, ne_eq, not_true, if_false]
  | collective rank size =>
    obtain ⟨rfl, rfl⟩ := hc
    have e := toInt_int4 _ hi.1.1 hi.1.2
    have e' := toInt_int4 _ hi.2.1 hi.2.2
    simp only [Obj.cls, Class.restore, Obj.items, Agrees, int4_length, true_and, e, e', ne_eq, not_true, if_false]
  | mp r rbuf sbuf rbufSz sbufSz rreqSz sreqSz rreq sreq rb sb =>
    simp only [Obj.cls, Class.restore, Obj.items, checkptAligned, List.cons_append, List.nil_append, Agrees]
    intro B' hB
    rw [sameBlk_intAt hB _ hL.mp]
    simp only [datas, Agrees]
    intro _ _ _ _ _ _ _ _ _ _ _ _ _ _ _ _
    have := agrees_ports .ret [] (by simp [Agrees]) (fun port => ⟨(rb port).1.null, (rb port).2, (rb port).2, 1, 1, 128, (rb port).1.mem⟩)
      (fun port => ⟨(sb port).1.null, (sb port).2, (sb port).2, 1, 1, 128, (sb port).1.mem⟩)
      (List.range (intAt r.mem L.mpNPort).toNat)
    rw [List.length_range, List.append_nil] at this
    exact this
  | rngPool r rng p =>
    simp only [Obj.cls, Class.restore, Obj.items, checkptAligned, List.cons_append, List.nil_append, Agrees]
    intro B' hB _ _
    rw [sameBlk_intAt hB _ hL.pool]
    have := agrees_ptrs .ret [] (by simp [Agrees]) ((List.range (intAt r.mem L.poolN).toNat).map p)
    simpa [Function.comp_def] using this
  | grid r range neighbor nRange nNeighbor mp =>
    have e : (Obj.grid r range neighbor nRange nNeighbor mp).cls = .grid := rfl
    have h := agrees_grid L hL c r range neighbor nRange nNeighbor mp
    rw [e]
    exact h
  | fieldArray r f p mc nv g nMc kernel =>
    have e : (Obj.fieldArray r f p mc nv g nMc kernel).cls = .fieldArray := rfl
    rw [e]
    exact agrees_fieldArray L c r f p mc nv g nMc kernel
  | accumulator r a n g =>
    simp only [Obj.Compatible] at hc
    simp only [Obj.cls, Class.restore, Obj.items, checkptAligned, Agrees]
    intro B' hB _ _ _
    rw [sameBlk_intAt hB _ hL.aa, hc]
    simp [Agrees]
  | hydro r h n g =>
    simp only [Obj.Compatible] at hc
    simp only [Obj.cls, Class.restore, Obj.items, checkptAligned, Agrees]
    intro B' hB _ _ _
    rw [sameBlk_intAt hB _ hL.ha, hc]
    simp [Agrees]
  | simulation r sz entropy syncEntropy grid lists =>
    simp only [Obj.cls, Class.restore, Obj.items, checkptAligned, List.cons_append, List.nil_append, ptrs, Agrees]
    intro _ _ _ _ _
    have := agrees_fptrs .ret [] (by simp [Agrees]) ((List.finRange 9).map lists)
    simpa [Function.comp_def] using this
  | _ => simp [Obj.cls, Class.restore, Obj.items, checkptAligned, checkptBc, checkptCop, ptrs, syms, datas, Agrees]

end Verif.Checkpt
