import Verif.Vector.LaneLemmas
import Verif.Vector.LV4Portable
import Verif.Vector.LV4Sse
import Verif.Vector.LV4Avx
import Verif.Vector.LV4Avx2
import Verif.Vector.LV4Neon
import Verif.Vector.LV8Portable
import Verif.Vector.LV8Avx
import Verif.Vector.LV8Avx2
import Verif.Vector.LV16Portable
import Verif.Vector.LV16Avx512

/-! The operators of each version together and what they do; written by `tools/gen_lanes.py`. -/
namespace Verif.Vector

/-- The operators and functions of /repo/src/util/v4/v4_portable.h. -/
def V4Portable.ops (F : Arith Word) : Ops 1 where
  iadd := V4Portable.iadd
  isub := V4Portable.isub
  imul := V4Portable.imul
  ixor := V4Portable.ixor
  iand := V4Portable.iand
  ior := V4Portable.ior
  iadd_to := V4Portable.iadd_to
  isub_to := V4Portable.isub_to
  imul_to := V4Portable.imul_to
  ixor_to := V4Portable.ixor_to
  iand_to := V4Portable.iand_to
  ior_to := V4Portable.ior_to
  ineg := V4Portable.ineg
  inot := V4Portable.inot
  ilnot := V4Portable.ilnot
  ilt := V4Portable.ilt
  igt := V4Portable.igt
  ieq := V4Portable.ieq
  ine := V4Portable.ine
  ile := V4Portable.ile
  ige := V4Portable.ige
  iland := V4Portable.iland
  ilor := V4Portable.ilor
  abs := V4Portable.abs
  czero := V4Portable.czero
  notczero := V4Portable.notczero
  merge := V4Portable.merge
  any := V4Portable.any
  all := V4Portable.all
  fadd := V4Portable.fadd F
  fsub := V4Portable.fsub F
  fmul := V4Portable.fmul F
  fdiv := V4Portable.fdiv F
  fadd_to := V4Portable.fadd_to F
  fsub_to := V4Portable.fsub_to F
  fmul_to := V4Portable.fmul_to F
  fdiv_to := V4Portable.fdiv_to F
  preinc := V4Portable.preinc F
  predec := V4Portable.predec F
  postinc := V4Portable.postinc F
  postdec := V4Portable.postdec F
  fneg := V4Portable.fneg
  flnot := V4Portable.flnot
  flt := V4Portable.flt
  fgt := V4Portable.fgt
  feq := V4Portable.feq
  fne := V4Portable.fne
  fle := V4Portable.fle
  fge := V4Portable.fge
  fland := V4Portable.fland
  flor := V4Portable.flor
  fabs := V4Portable.fabs
  sqrt := V4Portable.sqrt F
  copysign := V4Portable.copysign
  clear_bits := V4Portable.clear_bits
  set_bits := V4Portable.set_bits
  toggle_bits := V4Portable.toggle_bits

theorem V4Portable.right (F : Arith Word) : (V4Portable.ops F).Right F where
  iadd := by intro a b; cases_rfl
  isub := by intro a b; cases_rfl
  imul := by intro a b; cases_rfl
  ixor := by intro a b; cases_rfl
  iand := by intro a b; cases_rfl
  ior := by intro a b; cases_rfl
  iadd_to := to_of (by intro a b; cases_rfl)
  isub_to := to_of (by intro a b; cases_rfl)
  imul_to := to_of (by intro a b; cases_rfl)
  ixor_to := to_of (by intro a b; cases_rfl)
  iand_to := to_of (by intro a b; cases_rfl)
  ior_to := to_of (by intro a b; cases_rfl)
  ineg := by intro a; cases_rfl
  inot := by intro a; cases_rfl
  ilnot := lane1_of (by intro a; cases_rfl) lnot_mask
  ilt := lane2_of (by intro a b; cases_rfl) ilt_mask
  igt := lane2_of (by intro a b; cases_rfl) igt_mask
  ieq := lane2_of (by intro a b; cases_rfl) ieq_mask
  ine := lane2_of (by intro a b; cases_rfl) ine_mask
  ile := lane2_of (by intro a b; cases_rfl) ile_mask
  ige := lane2_of (by intro a b; cases_rfl) ige_mask
  iland := lane2_of (by intro a b; cases_rfl) iland_mask
  ilor := lane2_of (by intro a b; cases_rfl) ilor_mask
  abs := abs_of (by intro a; cases_rfl)
  czero := czero_of and_not_bits (by intro a b; cases_rfl)
  notczero := bits2_of and_bits' (by intro a b; cases_rfl)
  merge := bits3_of merge_bits' (by intro a b c; cases_rfl)
  any := any4
  all := every4
  fadd := by intro a b; cases_rfl
  fsub := by intro a b; cases_rfl
  fmul := by intro a b; cases_rfl
  fdiv := by intro a b; cases_rfl
  fadd_to := to_of (by intro a b; cases_rfl)
  fsub_to := to_of (by intro a b; cases_rfl)
  fmul_to := to_of (by intro a b; cases_rfl)
  fdiv_to := to_of (by intro a b; cases_rfl)
  preinc := pair_of (g := (fun x => F.add x F.one)) (g' := (fun x => F.add x F.one)) (by intro a; cases_rfl) (by intro a; cases_rfl)
  predec := pair_of (g := (fun x => F.sub x F.one)) (g' := (fun x => F.sub x F.one)) (by intro a; cases_rfl) (by intro a; cases_rfl)
  postinc := pair_of (g := (fun x => F.add x F.one)) (g' := id) (by intro a; cases_rfl) (by intro a; cases_rfl)
  postdec := pair_of (g := (fun x => F.sub x F.one)) (g' := id) (by intro a; cases_rfl) (by intro a; cases_rfl)
  flt := lane2_of (by intro a b; cases_rfl) (neg_bit' Word.flt)
  fgt := lane2_of (by intro a b; cases_rfl) bit_gt
  feq := lane2_of (by intro a b; cases_rfl) (neg_bit' Word.feq)
  fle := lane2_of (by intro a b; cases_rfl) (neg_bit' Word.fle)
  fge := lane2_of (by intro a b; cases_rfl) bit_ge
  fabs := bits1_of fabs_bits (by intro a; cases_rfl)
  sqrt := by intro a; cases_rfl
  set_bits := bits2_of or_bits (by intro a b; cases_rfl)
  toggle_bits := bits2_of xor_bits (by intro a b; cases_rfl)

theorem V4Portable.notEqual (F : Arith Word) : (V4Portable.ops F).NotEqual where
  fne := lane2_of (by intro a b; cases_rfl) (neg_bit' Word.fne)
  fland := lane2_of (by intro a b; cases_rfl) fland_mask
  flor := lane2_of (by intro a b; cases_rfl) flor_mask

theorem V4Portable.notBits (F : Arith Word) : Lane1 (V4Portable.ops F).flnot (fun a => mask (a = 0)) := lane1_of (by intro a; cases_rfl) ite_mask

theorem V4Portable.opposite (F : Arith Word) : (V4Portable.ops F).Opposite := by intro a; cases_rfl

theorem V4Portable.copyLess (F : Arith Word) : Lane2 (V4Portable.ops F).copysign copyLess := by intro a b; cases_rfl

theorem V4Portable.clear (F : Arith Word) : (V4Portable.ops F).Clear := clear_of (by intro a b; cases_rfl)

theorem V4Portable.increments {W : Type} (F : Arith W) : Updates 1 F.add (fun m p a => some (V4Portable.increment F m p a)) := updates_of_words (fun _ _ _ => by kernel_rfl)

theorem V4Portable.decrements {W : Type} (F : Arith W) : Updates 1 F.sub (fun m p a => some (V4Portable.decrement F m p a)) := updates_of_words (fun _ _ _ => by kernel_rfl)

theorem V4Portable.scales {W : Type} (F : Arith W) : Updates 1 F.mul (fun m p a => some (V4Portable.scale F m p a)) := updates_of_words (fun _ _ _ => by kernel_rfl)

theorem V4Portable.fused {K : Type} [Field K] (sqrt rs rc : K → K) : FusedRight (V4Portable.fma (exact K sqrt rs rc)) (V4Portable.fms (exact K sqrt rs rc)) (V4Portable.fnms (exact K sqrt rs rc)) :=
  ⟨by intro a b c; cases_rfl, by intro a b c; cases_rfl, by intro a b c; cases_rfl⟩

theorem V4Portable.inverse {W : Type} (F : Arith W) : Lane1 (V4Portable.rsqrt F) (fun a => F.sqrt (F.div F.one a)) ∧ Lane1 (V4Portable.rcp F) (F.div F.one) :=
  ⟨by intro a; cases_rfl, by intro a; cases_rfl⟩

/-- The operators and functions of /repo/src/util/v4/v4_sse.h. -/
def V4Sse.ops (F : Arith Word) : Ops 1 where
  iadd := V4Sse.iadd
  isub := V4Sse.isub
  imul := V4Sse.imul
  ixor := V4Sse.ixor
  iand := V4Sse.iand
  ior := V4Sse.ior
  iadd_to := V4Sse.iadd_to
  isub_to := V4Sse.isub_to
  imul_to := V4Sse.imul_to
  ixor_to := V4Sse.ixor_to
  iand_to := V4Sse.iand_to
  ior_to := V4Sse.ior_to
  ineg := V4Sse.ineg
  inot := V4Sse.inot
  ilnot := V4Sse.ilnot
  ilt := V4Sse.ilt
  igt := V4Sse.igt
  ieq := V4Sse.ieq
  ine := V4Sse.ine
  ile := V4Sse.ile
  ige := V4Sse.ige
  iland := V4Sse.iland
  ilor := V4Sse.ilor
  abs := V4Sse.abs
  czero := V4Sse.czero
  notczero := V4Sse.notczero
  merge := V4Sse.merge
  any := V4Sse.any
  all := V4Sse.all
  fadd := V4Sse.fadd F
  fsub := V4Sse.fsub F
  fmul := V4Sse.fmul F
  fdiv := V4Sse.fdiv F
  fadd_to := V4Sse.fadd_to F
  fsub_to := V4Sse.fsub_to F
  fmul_to := V4Sse.fmul_to F
  fdiv_to := V4Sse.fdiv_to F
  preinc := V4Sse.preinc F
  predec := V4Sse.predec F
  postinc := V4Sse.postinc F
  postdec := V4Sse.postdec F
  fneg := V4Sse.fneg F
  flnot := V4Sse.flnot
  flt := V4Sse.flt
  fgt := V4Sse.fgt
  feq := V4Sse.feq
  fne := V4Sse.fne
  fle := V4Sse.fle
  fge := V4Sse.fge
  fland := V4Sse.fland
  flor := V4Sse.flor
  fabs := V4Sse.fabs
  sqrt := V4Sse.sqrt F
  copysign := V4Sse.copysign
  clear_bits := V4Sse.clear_bits
  set_bits := V4Sse.set_bits
  toggle_bits := V4Sse.toggle_bits

theorem V4Sse.right (F : Arith Word) : (V4Sse.ops F).Right F where
  iadd := by intro a b; cases_rfl
  isub := by intro a b; cases_rfl
  imul := by intro a b; cases_rfl
  ixor := by intro a b; cases_rfl
  iand := by intro a b; cases_rfl
  ior := by intro a b; cases_rfl
  iadd_to := to_of (by intro a b; cases_rfl)
  isub_to := to_of (by intro a b; cases_rfl)
  imul_to := to_of (by intro a b; cases_rfl)
  ixor_to := to_of (by intro a b; cases_rfl)
  iand_to := to_of (by intro a b; cases_rfl)
  ior_to := to_of (by intro a b; cases_rfl)
  ineg := by intro a; cases_rfl
  inot := lane1_of (by intro a; cases_rfl) xor_ones
  ilnot := lane1_of (by intro a; cases_rfl) lnot_mask
  ilt := lane2_of (by intro a b; cases_rfl) ilt_mask
  igt := lane2_of (by intro a b; cases_rfl) igt_mask
  ieq := lane2_of (by intro a b; cases_rfl) ieq_mask
  ine := lane2_of (by intro a b; cases_rfl) ine_mask
  ile := lane2_of (by intro a b; cases_rfl) ile_mask
  ige := lane2_of (by intro a b; cases_rfl) ige_mask
  iland := lane2_of (by intro a b; cases_rfl) iland_mask
  ilor := lane2_of (by intro a b; cases_rfl) ilor_mask
  abs := abs_of (by intro a; cases_rfl)
  czero := czero_of andnot_bits (by intro a b; cases_rfl)
  notczero := bits2_of and_bits (by intro a b; cases_rfl)
  merge := bits3_of merge_bits (by intro a b c; cases_rfl)
  any := any4
  all := every4
  fadd := by intro a b; cases_rfl
  fsub := by intro a b; cases_rfl
  fmul := by intro a b; cases_rfl
  fdiv := by intro a b; cases_rfl
  fadd_to := to_of (by intro a b; cases_rfl)
  fsub_to := to_of (by intro a b; cases_rfl)
  fmul_to := to_of (by intro a b; cases_rfl)
  fdiv_to := to_of (by intro a b; cases_rfl)
  preinc := pair_of (g := (fun x => F.add x F.one)) (g' := (fun x => F.add x F.one)) (by intro a; cases_rfl) (by intro a; cases_rfl)
  predec := pair_of (g := (fun x => F.sub x F.one)) (g' := (fun x => F.sub x F.one)) (by intro a; cases_rfl) (by intro a; cases_rfl)
  postinc := pair_of (g := (fun x => F.add x F.one)) (g' := id) (by intro a; cases_rfl) (by intro a; cases_rfl)
  postdec := pair_of (g := (fun x => F.sub x F.one)) (g' := id) (by intro a; cases_rfl) (by intro a; cases_rfl)
  flt := lane2_of (by intro a b; cases_rfl) (cmp_mask Word.flt)
  fgt := lane2_of (by intro a b; cases_rfl) cmp_gt
  feq := lane2_of (by intro a b; cases_rfl) (cmp_mask Word.feq)
  fle := lane2_of (by intro a b; cases_rfl) (cmp_mask Word.fle)
  fge := lane2_of (by intro a b; cases_rfl) cmp_ge
  fabs := bits1_of fabs_bits' (by intro a; cases_rfl)
  sqrt := by intro a; cases_rfl
  set_bits := bits2_of or_bits (by intro a b; cases_rfl)
  toggle_bits := bits2_of xor_bits (by intro a b; cases_rfl)

theorem V4Sse.notEqual (F : Arith Word) : (V4Sse.ops F).NotEqual where
  fne := lane2_of (by intro a b; cases_rfl) (cmp_mask Word.fne)
  fland := lane2_of (by intro a b; cases_rfl) land_mask
  flor := lane2_of (by intro a b; cases_rfl) lor_mask

theorem V4Sse.not (F : Arith Word) : (V4Sse.ops F).Not := lane1_of (by intro a; cases_rfl) zero_mask

theorem V4Sse.minus (F : Arith Word) : Lane1 (V4Sse.ops F).fneg (F.sub F.zero) := by intro a; cases_rfl

theorem V4Sse.copySign (F : Arith Word) : (V4Sse.ops F).CopySign := copysign_of (by intro a b; cases_rfl)

theorem V4Sse.clear (F : Arith Word) : (V4Sse.ops F).Clear := clear_of (by intro a b; cases_rfl)

theorem V4Sse.increments {W : Type} (F : Arith W) : Updates 4 F.add (V4Sse.increment F) := updates_of_load1 fun _ _ _ => rfl

theorem V4Sse.decrements {W : Type} (F : Arith W) : Updates 4 F.sub (V4Sse.decrement F) := updates_of_load1 fun _ _ _ => rfl

theorem V4Sse.scales {W : Type} (F : Arith W) : Updates 4 F.mul (V4Sse.scale F) := updates_of_load1 fun _ _ _ => rfl

theorem V4Sse.fused {K : Type} [Field K] (sqrt rs rc : K → K) : FusedRight (V4Sse.fma (exact K sqrt rs rc)) (V4Sse.fms (exact K sqrt rs rc)) (V4Sse.fnms (exact K sqrt rs rc)) :=
  ⟨by intro a b c; cases_rfl, by intro a b c; cases_rfl, by intro a b c; cases_rfl⟩

theorem V4Sse.newtonRsqrt {K : Type} [Field K] [CharZero K] (sqrt rs rc : K → K) : RefinesRsqrt rs (V4Sse.rsqrt (exact K sqrt rs rc)) :=
  refinesRsqrt_of (by intro F a; cases_rfl)

theorem V4Sse.newtonRcp {K : Type} [Field K] (sqrt rs rc : K → K) : RefinesRcp rc (V4Sse.rcp (exact K sqrt rs rc)) := refinesRcp_of (by intro a; cases_rfl)

/-- The operators and functions of /repo/src/util/v4/v4_avx.h. -/
def V4Avx.ops (F : Arith Word) : Ops 1 where
  iadd := V4Avx.iadd
  isub := V4Avx.isub
  imul := V4Avx.imul
  ixor := V4Avx.ixor
  iand := V4Avx.iand
  ior := V4Avx.ior
  iadd_to := V4Avx.iadd_to
  isub_to := V4Avx.isub_to
  imul_to := V4Avx.imul_to
  ixor_to := V4Avx.ixor_to
  iand_to := V4Avx.iand_to
  ior_to := V4Avx.ior_to
  ineg := V4Avx.ineg
  inot := V4Avx.inot
  ilnot := V4Avx.ilnot
  ilt := V4Avx.ilt
  igt := V4Avx.igt
  ieq := V4Avx.ieq
  ine := V4Avx.ine
  ile := V4Avx.ile
  ige := V4Avx.ige
  iland := V4Avx.iland
  ilor := V4Avx.ilor
  abs := V4Avx.abs
  czero := V4Avx.czero
  notczero := V4Avx.notczero
  merge := V4Avx.merge
  any := V4Avx.any
  all := V4Avx.all
  fadd := V4Avx.fadd F
  fsub := V4Avx.fsub F
  fmul := V4Avx.fmul F
  fdiv := V4Avx.fdiv F
  fadd_to := V4Avx.fadd_to F
  fsub_to := V4Avx.fsub_to F
  fmul_to := V4Avx.fmul_to F
  fdiv_to := V4Avx.fdiv_to F
  preinc := V4Avx.preinc F
  predec := V4Avx.predec F
  postinc := V4Avx.postinc F
  postdec := V4Avx.postdec F
  fneg := V4Avx.fneg F
  flnot := V4Avx.flnot
  flt := V4Avx.flt
  fgt := V4Avx.fgt
  feq := V4Avx.feq
  fne := V4Avx.fne
  fle := V4Avx.fle
  fge := V4Avx.fge
  fland := V4Avx.fland
  flor := V4Avx.flor
  fabs := V4Avx.fabs
  sqrt := V4Avx.sqrt F
  copysign := V4Avx.copysign
  clear_bits := V4Avx.clear_bits
  set_bits := V4Avx.set_bits
  toggle_bits := V4Avx.toggle_bits

theorem V4Avx.right (F : Arith Word) : (V4Avx.ops F).Right F where
  iadd := by intro a b; cases_rfl
  isub := by intro a b; cases_rfl
  imul := by intro a b; cases_rfl
  ixor := by intro a b; cases_rfl
  iand := by intro a b; cases_rfl
  ior := by intro a b; cases_rfl
  iadd_to := to_of (by intro a b; cases_rfl)
  isub_to := to_of (by intro a b; cases_rfl)
  imul_to := to_of (by intro a b; cases_rfl)
  ixor_to := to_of (by intro a b; cases_rfl)
  iand_to := to_of (by intro a b; cases_rfl)
  ior_to := to_of (by intro a b; cases_rfl)
  ineg := by intro a; cases_rfl
  inot := lane1_of (by intro a; cases_rfl) xor_ones
  ilnot := lane1_of (by intro a; cases_rfl) lnot_mask
  ilt := lane2_of (by intro a b; cases_rfl) ilt_mask
  igt := lane2_of (by intro a b; cases_rfl) igt_mask
  ieq := lane2_of (by intro a b; cases_rfl) ieq_mask
  ine := lane2_of (by intro a b; cases_rfl) ine_mask
  ile := lane2_of (by intro a b; cases_rfl) ile_mask
  ige := lane2_of (by intro a b; cases_rfl) ige_mask
  iland := lane2_of (by intro a b; cases_rfl) iland_mask
  ilor := lane2_of (by intro a b; cases_rfl) ilor_mask
  abs := abs_of (by intro a; cases_rfl)
  czero := czero_of andnot_bits (by intro a b; cases_rfl)
  notczero := bits2_of and_bits (by intro a b; cases_rfl)
  merge := bits3_of merge_bits (by intro a b c; cases_rfl)
  any := any4
  all := every4
  fadd := by intro a b; cases_rfl
  fsub := by intro a b; cases_rfl
  fmul := by intro a b; cases_rfl
  fdiv := by intro a b; cases_rfl
  fadd_to := to_of (by intro a b; cases_rfl)
  fsub_to := to_of (by intro a b; cases_rfl)
  fmul_to := to_of (by intro a b; cases_rfl)
  fdiv_to := to_of (by intro a b; cases_rfl)
  preinc := pair_of (g := (fun x => F.add x F.one)) (g' := (fun x => F.add x F.one)) (by intro a; cases_rfl) (by intro a; cases_rfl)
  predec := pair_of (g := (fun x => F.sub x F.one)) (g' := (fun x => F.sub x F.one)) (by intro a; cases_rfl) (by intro a; cases_rfl)
  postinc := pair_of (g := (fun x => F.add x F.one)) (g' := id) (by intro a; cases_rfl) (by intro a; cases_rfl)
  postdec := pair_of (g := (fun x => F.sub x F.one)) (g' := id) (by intro a; cases_rfl) (by intro a; cases_rfl)
  flt := lane2_of (by intro a b; cases_rfl) (cmp_mask Word.flt)
  fgt := lane2_of (by intro a b; cases_rfl) cmp_gt
  feq := lane2_of (by intro a b; cases_rfl) (cmp_mask Word.feq)
  fle := lane2_of (by intro a b; cases_rfl) (cmp_mask Word.fle)
  fge := lane2_of (by intro a b; cases_rfl) cmp_ge
  fabs := bits1_of fabs_bits' (by intro a; cases_rfl)
  sqrt := by intro a; cases_rfl
  set_bits := bits2_of or_bits (by intro a b; cases_rfl)
  toggle_bits := bits2_of xor_bits (by intro a b; cases_rfl)

theorem V4Avx.notEqual (F : Arith Word) : (V4Avx.ops F).NotEqual where
  fne := lane2_of (by intro a b; cases_rfl) (cmp_mask Word.fne)
  fland := lane2_of (by intro a b; cases_rfl) land_mask
  flor := lane2_of (by intro a b; cases_rfl) lor_mask

theorem V4Avx.not (F : Arith Word) : (V4Avx.ops F).Not := lane1_of (by intro a; cases_rfl) zero_mask

theorem V4Avx.minus (F : Arith Word) : Lane1 (V4Avx.ops F).fneg (F.sub F.zero) := by intro a; cases_rfl

theorem V4Avx.copySign (F : Arith Word) : (V4Avx.ops F).CopySign := copysign_of (by intro a b; cases_rfl)

theorem V4Avx.clear (F : Arith Word) : (V4Avx.ops F).Clear := clear_of (by intro a b; cases_rfl)

theorem V4Avx.increments {W : Type} (F : Arith W) : Updates 4 F.add (V4Avx.increment F) := updates_of_load1 fun _ _ _ => rfl

theorem V4Avx.decrements {W : Type} (F : Arith W) : Updates 4 F.sub (V4Avx.decrement F) := updates_of_load1 fun _ _ _ => rfl

theorem V4Avx.scales {W : Type} (F : Arith W) : Updates 4 F.mul (V4Avx.scale F) := updates_of_load1 fun _ _ _ => rfl

theorem V4Avx.fused {K : Type} [Field K] (sqrt rs rc : K → K) : FusedRight (V4Avx.fma (exact K sqrt rs rc)) (V4Avx.fms (exact K sqrt rs rc)) (V4Avx.fnms (exact K sqrt rs rc)) :=
  ⟨by intro a b c; cases_rfl, by intro a b c; cases_rfl, by intro a b c; cases_rfl⟩

theorem V4Avx.newtonRsqrt {K : Type} [Field K] [CharZero K] (sqrt rs rc : K → K) : RefinesRsqrt rs (V4Avx.rsqrt (exact K sqrt rs rc)) :=
  refinesRsqrt_of (by intro F a; cases_rfl)

theorem V4Avx.newtonRcp {K : Type} [Field K] (sqrt rs rc : K → K) : RefinesRcp rc (V4Avx.rcp (exact K sqrt rs rc)) := refinesRcp_of (by intro a; cases_rfl)

/-- The operators and functions of /repo/src/util/v4/v4_avx2.h. -/
def V4Avx2.ops (F : Arith Word) : Ops 1 where
  iadd := V4Avx2.iadd
  isub := V4Avx2.isub
  imul := V4Avx2.imul
  ixor := V4Avx2.ixor
  iand := V4Avx2.iand
  ior := V4Avx2.ior
  iadd_to := V4Avx2.iadd_to
  isub_to := V4Avx2.isub_to
  imul_to := V4Avx2.imul_to
  ixor_to := V4Avx2.ixor_to
  iand_to := V4Avx2.iand_to
  ior_to := V4Avx2.ior_to
  ineg := V4Avx2.ineg
  inot := V4Avx2.inot
  ilnot := V4Avx2.ilnot
  ilt := V4Avx2.ilt
  igt := V4Avx2.igt
  ieq := V4Avx2.ieq
  ine := V4Avx2.ine
  ile := V4Avx2.ile
  ige := V4Avx2.ige
  iland := V4Avx2.iland
  ilor := V4Avx2.ilor
  abs := V4Avx2.abs
  czero := V4Avx2.czero
  notczero := V4Avx2.notczero
  merge := V4Avx2.merge
  any := V4Avx2.any
  all := V4Avx2.all
  fadd := V4Avx2.fadd F
  fsub := V4Avx2.fsub F
  fmul := V4Avx2.fmul F
  fdiv := V4Avx2.fdiv F
  fadd_to := V4Avx2.fadd_to F
  fsub_to := V4Avx2.fsub_to F
  fmul_to := V4Avx2.fmul_to F
  fdiv_to := V4Avx2.fdiv_to F
  preinc := V4Avx2.preinc F
  predec := V4Avx2.predec F
  postinc := V4Avx2.postinc F
  postdec := V4Avx2.postdec F
  fneg := V4Avx2.fneg F
  flnot := V4Avx2.flnot
  flt := V4Avx2.flt
  fgt := V4Avx2.fgt
  feq := V4Avx2.feq
  fne := V4Avx2.fne
  fle := V4Avx2.fle
  fge := V4Avx2.fge
  fland := V4Avx2.fland
  flor := V4Avx2.flor
  fabs := V4Avx2.fabs
  sqrt := V4Avx2.sqrt F
  copysign := V4Avx2.copysign
  clear_bits := V4Avx2.clear_bits
  set_bits := V4Avx2.set_bits
  toggle_bits := V4Avx2.toggle_bits

theorem V4Avx2.right (F : Arith Word) : (V4Avx2.ops F).Right F where
  iadd := by intro a b; cases_rfl
  isub := by intro a b; cases_rfl
  imul := by intro a b; cases_rfl
  ixor := by intro a b; cases_rfl
  iand := by intro a b; cases_rfl
  ior := by intro a b; cases_rfl
  iadd_to := to_of (by intro a b; cases_rfl)
  isub_to := to_of (by intro a b; cases_rfl)
  imul_to := to_of (by intro a b; cases_rfl)
  ixor_to := to_of (by intro a b; cases_rfl)
  iand_to := to_of (by intro a b; cases_rfl)
  ior_to := to_of (by intro a b; cases_rfl)
  ineg := by intro a; cases_rfl
  inot := lane1_of (by intro a; cases_rfl) xor_ones
  ilnot := lane1_of (by intro a; cases_rfl) lnot_mask
  ilt := lane2_of (by intro a b; cases_rfl) ilt_mask
  igt := lane2_of (by intro a b; cases_rfl) igt_mask
  ieq := lane2_of (by intro a b; cases_rfl) ieq_mask
  ine := lane2_of (by intro a b; cases_rfl) ine_mask
  ile := lane2_of (by intro a b; cases_rfl) ile_mask
  ige := lane2_of (by intro a b; cases_rfl) ige_mask
  iland := lane2_of (by intro a b; cases_rfl) iland_mask
  ilor := lane2_of (by intro a b; cases_rfl) ilor_mask
  abs := abs_of (by intro a; cases_rfl)
  czero := czero_of andnot_bits (by intro a b; cases_rfl)
  notczero := bits2_of and_bits (by intro a b; cases_rfl)
  merge := bits3_of merge_bits (by intro a b c; cases_rfl)
  any := any4
  all := every4
  fadd := by intro a b; cases_rfl
  fsub := by intro a b; cases_rfl
  fmul := by intro a b; cases_rfl
  fdiv := by intro a b; cases_rfl
  fadd_to := to_of (by intro a b; cases_rfl)
  fsub_to := to_of (by intro a b; cases_rfl)
  fmul_to := to_of (by intro a b; cases_rfl)
  fdiv_to := to_of (by intro a b; cases_rfl)
  preinc := pair_of (g := (fun x => F.add x F.one)) (g' := (fun x => F.add x F.one)) (by intro a; cases_rfl) (by intro a; cases_rfl)
  predec := pair_of (g := (fun x => F.sub x F.one)) (g' := (fun x => F.sub x F.one)) (by intro a; cases_rfl) (by intro a; cases_rfl)
  postinc := pair_of (g := (fun x => F.add x F.one)) (g' := id) (by intro a; cases_rfl) (by intro a; cases_rfl)
  postdec := pair_of (g := (fun x => F.sub x F.one)) (g' := id) (by intro a; cases_rfl) (by intro a; cases_rfl)
  flt := lane2_of (by intro a b; cases_rfl) (cmp_mask Word.flt)
  fgt := lane2_of (by intro a b; cases_rfl) cmp_gt
  feq := lane2_of (by intro a b; cases_rfl) (cmp_mask Word.feq)
  fle := lane2_of (by intro a b; cases_rfl) (cmp_mask Word.fle)
  fge := lane2_of (by intro a b; cases_rfl) cmp_ge
  fabs := bits1_of fabs_bits' (by intro a; cases_rfl)
  sqrt := by intro a; cases_rfl
  set_bits := bits2_of or_bits (by intro a b; cases_rfl)
  toggle_bits := bits2_of xor_bits (by intro a b; cases_rfl)

theorem V4Avx2.notEqual (F : Arith Word) : (V4Avx2.ops F).NotEqual where
  fne := lane2_of (by intro a b; cases_rfl) (cmp_mask Word.fne)
  fland := lane2_of (by intro a b; cases_rfl) land_mask
  flor := lane2_of (by intro a b; cases_rfl) lor_mask

theorem V4Avx2.not (F : Arith Word) : (V4Avx2.ops F).Not := lane1_of (by intro a; cases_rfl) zero_mask

theorem V4Avx2.minus (F : Arith Word) : Lane1 (V4Avx2.ops F).fneg (F.sub F.zero) := by intro a; cases_rfl

theorem V4Avx2.copySign (F : Arith Word) : (V4Avx2.ops F).CopySign := copysign_of (by intro a b; cases_rfl)

theorem V4Avx2.clear (F : Arith Word) : (V4Avx2.ops F).Clear := clear_of (by intro a b; cases_rfl)

theorem V4Avx2.increments {W : Type} (F : Arith W) : Updates 4 F.add (V4Avx2.increment F) := updates_of_load1 fun _ _ _ => rfl

theorem V4Avx2.decrements {W : Type} (F : Arith W) : Updates 4 F.sub (V4Avx2.decrement F) := updates_of_load1 fun _ _ _ => rfl

theorem V4Avx2.scales {W : Type} (F : Arith W) : Updates 4 F.mul (V4Avx2.scale F) := updates_of_load1 fun _ _ _ => rfl

theorem V4Avx2.fused {K : Type} [Field K] (sqrt rs rc : K → K) : FusedRight (V4Avx2.fma (exact K sqrt rs rc)) (V4Avx2.fms (exact K sqrt rs rc)) (V4Avx2.fnms (exact K sqrt rs rc)) :=
  ⟨by intro a b c; cases_rfl, by intro a b c; cases_rfl, by intro a b c; cases_rfl⟩

theorem V4Avx2.newtonRsqrt {K : Type} [Field K] [CharZero K] (sqrt rs rc : K → K) : RefinesRsqrt rs (V4Avx2.rsqrt (exact K sqrt rs rc)) :=
  refinesRsqrt_of' (by intro F a; cases_rfl)

theorem V4Avx2.newtonRcp {K : Type} [Field K] (sqrt rs rc : K → K) : RefinesRcp rc (V4Avx2.rcp (exact K sqrt rs rc)) := refinesRcp_of (by intro a; cases_rfl)

/-- The operators and functions of /repo/src/util/v4/v4_neon.h. -/
def V4Neon.ops (F : Arith Word) : Ops 1 where
  iadd := V4Neon.iadd
  isub := V4Neon.isub
  imul := V4Neon.imul
  ixor := V4Neon.ixor
  iand := V4Neon.iand
  ior := V4Neon.ior
  iadd_to := V4Neon.iadd_to
  isub_to := V4Neon.isub_to
  imul_to := V4Neon.imul_to
  ixor_to := V4Neon.ixor_to
  iand_to := V4Neon.iand_to
  ior_to := V4Neon.ior_to
  ineg := V4Neon.ineg
  inot := V4Neon.inot
  ilnot := V4Neon.ilnot
  ilt := V4Neon.ilt
  igt := V4Neon.igt
  ieq := V4Neon.ieq
  ine := V4Neon.ine
  ile := V4Neon.ile
  ige := V4Neon.ige
  iland := V4Neon.iland
  ilor := V4Neon.ilor
  abs := V4Neon.abs
  czero := V4Neon.czero
  notczero := V4Neon.notczero
  merge := V4Neon.merge
  any := V4Neon.any
  all := V4Neon.all
  fadd := V4Neon.fadd F
  fsub := V4Neon.fsub F
  fmul := V4Neon.fmul F
  fdiv := V4Neon.fdiv F
  fadd_to := V4Neon.fadd_to F
  fsub_to := V4Neon.fsub_to F
  fmul_to := V4Neon.fmul_to F
  fdiv_to := V4Neon.fdiv_to F
  preinc := V4Neon.preinc F
  predec := V4Neon.predec F
  postinc := V4Neon.postinc F
  postdec := V4Neon.postdec F
  fneg := V4Neon.fneg
  flnot := V4Neon.flnot
  flt := V4Neon.flt
  fgt := V4Neon.fgt
  feq := V4Neon.feq
  fne := V4Neon.fne
  fle := V4Neon.fle
  fge := V4Neon.fge
  fland := V4Neon.fland
  flor := V4Neon.flor
  fabs := V4Neon.fabs
  sqrt := V4Neon.sqrt F
  copysign := V4Neon.copysign
  clear_bits := V4Neon.clear_bits
  set_bits := V4Neon.set_bits
  toggle_bits := V4Neon.toggle_bits

theorem V4Neon.right (F : Arith Word) : (V4Neon.ops F).Right F where
  iadd := by intro a b; cases_rfl
  isub := by intro a b; cases_rfl
  imul := by intro a b; cases_rfl
  ixor := by intro a b; cases_rfl
  iand := by intro a b; cases_rfl
  ior := by intro a b; cases_rfl
  iadd_to := to_of (by intro a b; cases_rfl)
  isub_to := to_of (by intro a b; cases_rfl)
  imul_to := to_of (by intro a b; cases_rfl)
  ixor_to := to_of (by intro a b; cases_rfl)
  iand_to := to_of (by intro a b; cases_rfl)
  ior_to := to_of (by intro a b; cases_rfl)
  ineg := by intro a; cases_rfl
  inot := by intro a; cases_rfl
  ilnot := lane1_of (by intro a; cases_rfl) lnot_mask
  ilt := lane2_of (by intro a b; cases_rfl) ilt_mask
  igt := lane2_of (by intro a b; cases_rfl) igt_mask
  ieq := lane2_of (by intro a b; cases_rfl) ieq_mask
  ine := lane2_of (by intro a b; cases_rfl) ine_mask
  ile := lane2_of (by intro a b; cases_rfl) ile_mask
  ige := lane2_of (by intro a b; cases_rfl) ige_mask
  iland := lane2_of (by intro a b; cases_rfl) iland_mask
  ilor := lane2_of (by intro a b; cases_rfl) ilor_mask
  abs := abs_of (by intro a; cases_rfl)
  czero := czero_of and_not_bits (by intro a b; cases_rfl)
  notczero := bits2_of and_bits (by intro a b; cases_rfl)
  merge := bits3_of merge_bits' (by intro a b c; cases_rfl)
  any := any4
  all := every4
  fadd := by intro a b; cases_rfl
  fsub := by intro a b; cases_rfl
  fmul := by intro a b; cases_rfl
  fdiv := by intro a b; cases_rfl
  fadd_to := to_of (by intro a b; cases_rfl)
  fsub_to := to_of (by intro a b; cases_rfl)
  fmul_to := to_of (by intro a b; cases_rfl)
  fdiv_to := to_of (by intro a b; cases_rfl)
  preinc := pair_of (g := (fun x => F.add x F.one)) (g' := (fun x => F.add x F.one)) (by intro a; cases_rfl) (by intro a; cases_rfl)
  predec := pair_of (g := (fun x => F.sub x F.one)) (g' := (fun x => F.sub x F.one)) (by intro a; cases_rfl) (by intro a; cases_rfl)
  postinc := pair_of (g := (fun x => F.add x F.one)) (g' := id) (by intro a; cases_rfl) (by intro a; cases_rfl)
  postdec := pair_of (g := (fun x => F.sub x F.one)) (g' := id) (by intro a; cases_rfl) (by intro a; cases_rfl)
  flt := lane2_of (by intro a b; cases_rfl) (cmp_mask Word.flt)
  fgt := lane2_of (by intro a b; cases_rfl) cmp_gt
  feq := lane2_of (by intro a b; cases_rfl) (cmp_mask Word.feq)
  fle := lane2_of (by intro a b; cases_rfl) (cmp_mask Word.fle)
  fge := lane2_of (by intro a b; cases_rfl) cmp_ge
  fabs := bits1_of fabs_bits (by intro a; cases_rfl)
  sqrt := by intro a; cases_rfl
  set_bits := bits2_of or_bits (by intro a b; cases_rfl)
  toggle_bits := bits2_of xor_bits (by intro a b; cases_rfl)

theorem V4Neon.notEqual (F : Arith Word) : (V4Neon.ops F).NotEqual where
  fne := lane2_of (by intro a b; cases_rfl) not_cmp_mask
  fland := lane2_of (by intro a b; cases_rfl) nland_mask
  flor := lane2_of (by intro a b; cases_rfl) nlor_mask

theorem V4Neon.notBits (F : Arith Word) : Lane1 (V4Neon.ops F).flnot (fun a => mask (a = 0)) := lane1_of (by intro a; cases_rfl) ite_mask

theorem V4Neon.opposite (F : Arith Word) : (V4Neon.ops F).Opposite := by intro a; cases_rfl

theorem V4Neon.copyLess (F : Arith Word) : Lane2 (V4Neon.ops F).copysign copyLess := by intro a b; cases_rfl

theorem V4Neon.increments {W : Type} (F : Arith W) : Updates 1 F.add (fun m p a => some (V4Neon.increment F m p a)) := updates_of_ldq fun _ _ _ => rfl

theorem V4Neon.decrements {W : Type} (F : Arith W) : Updates 1 F.sub (fun m p a => some (V4Neon.decrement F m p a)) := updates_of_ldq fun _ _ _ => rfl

theorem V4Neon.scales {W : Type} (F : Arith W) : Updates 1 F.mul (fun m p a => some (V4Neon.scale F m p a)) := updates_of_ldq fun _ _ _ => rfl

theorem V4Neon.fused {K : Type} [Field K] (sqrt rs rc : K → K) : FusedRight (V4Neon.fma (exact K sqrt rs rc)) (V4Neon.fms (exact K sqrt rs rc)) (V4Neon.fnms (exact K sqrt rs rc)) :=
  ⟨by intro a b c; cases_rfl, by intro a b c; cases_rfl, by intro a b c; cases_rfl⟩

theorem V4Neon.newtonRsqrt {K : Type} [Field K] [CharZero K] (sqrt rs rc : K → K) : RefinesRsqrt rs (V4Neon.rsqrt (exact K sqrt rs rc)) :=
  refinesRsqrt_of (by intro F a; cases_rfl)

theorem V4Neon.newtonRcp {K : Type} [Field K] (sqrt rs rc : K → K) : RefinesRcp rc (V4Neon.rcp (exact K sqrt rs rc)) := refinesRcp_of (by intro a; cases_rfl)

/-- The operators and functions of /repo/src/util/v8/v8_portable.h. -/
def V8Portable.ops (F : Arith Word) : Ops 2 where
  iadd := V8Portable.iadd
  isub := V8Portable.isub
  imul := V8Portable.imul
  ixor := V8Portable.ixor
  iand := V8Portable.iand
  ior := V8Portable.ior
  iadd_to := V8Portable.iadd_to
  isub_to := V8Portable.isub_to
  imul_to := V8Portable.imul_to
  ixor_to := V8Portable.ixor_to
  iand_to := V8Portable.iand_to
  ior_to := V8Portable.ior_to
  ineg := V8Portable.ineg
  inot := V8Portable.inot
  ilnot := V8Portable.ilnot
  ilt := V8Portable.ilt
  igt := V8Portable.igt
  ieq := V8Portable.ieq
  ine := V8Portable.ine
  ile := V8Portable.ile
  ige := V8Portable.ige
  iland := V8Portable.iland
  ilor := V8Portable.ilor
  abs := V8Portable.abs
  czero := V8Portable.czero
  notczero := V8Portable.notczero
  merge := V8Portable.merge
  any := V8Portable.any
  all := V8Portable.all
  fadd := V8Portable.fadd F
  fsub := V8Portable.fsub F
  fmul := V8Portable.fmul F
  fdiv := V8Portable.fdiv F
  fadd_to := V8Portable.fadd_to F
  fsub_to := V8Portable.fsub_to F
  fmul_to := V8Portable.fmul_to F
  fdiv_to := V8Portable.fdiv_to F
  preinc := V8Portable.preinc F
  predec := V8Portable.predec F
  postinc := V8Portable.postinc F
  postdec := V8Portable.postdec F
  fneg := V8Portable.fneg
  flnot := V8Portable.flnot
  flt := V8Portable.flt
  fgt := V8Portable.fgt
  feq := V8Portable.feq
  fne := V8Portable.fne
  fle := V8Portable.fle
  fge := V8Portable.fge
  fland := V8Portable.fland
  flor := V8Portable.flor
  fabs := V8Portable.fabs
  sqrt := V8Portable.sqrt F
  copysign := V8Portable.copysign
  clear_bits := V8Portable.clear_bits
  set_bits := V8Portable.set_bits
  toggle_bits := V8Portable.toggle_bits

theorem V8Portable.right (F : Arith Word) : (V8Portable.ops F).Right F where
  iadd := by intro a b; cases_rfl
  isub := by intro a b; cases_rfl
  imul := by intro a b; cases_rfl
  ixor := by intro a b; cases_rfl
  iand := by intro a b; cases_rfl
  ior := by intro a b; cases_rfl
  iadd_to := to_of (by intro a b; cases_rfl)
  isub_to := to_of (by intro a b; cases_rfl)
  imul_to := to_of (by intro a b; cases_rfl)
  ixor_to := to_of (by intro a b; cases_rfl)
  iand_to := to_of (by intro a b; cases_rfl)
  ior_to := to_of (by intro a b; cases_rfl)
  ineg := by intro a; cases_rfl
  inot := by intro a; cases_rfl
  ilnot := lane1_of (by intro a; cases_rfl) lnot_mask
  ilt := lane2_of (by intro a b; cases_rfl) ilt_mask
  igt := lane2_of (by intro a b; cases_rfl) igt_mask
  ieq := lane2_of (by intro a b; cases_rfl) ieq_mask
  ine := lane2_of (by intro a b; cases_rfl) ine_mask
  ile := lane2_of (by intro a b; cases_rfl) ile_mask
  ige := lane2_of (by intro a b; cases_rfl) ige_mask
  iland := lane2_of (by intro a b; cases_rfl) iland_mask
  ilor := lane2_of (by intro a b; cases_rfl) ilor_mask
  abs := abs_of (by intro a; cases_rfl)
  czero := czero_of and_not_bits (by intro a b; cases_rfl)
  notczero := bits2_of and_bits' (by intro a b; cases_rfl)
  merge := bits3_of merge_bits' (by intro a b c; cases_rfl)
  any := any8
  all := every8
  fadd := by intro a b; cases_rfl
  fsub := by intro a b; cases_rfl
  fmul := by intro a b; cases_rfl
  fdiv := by intro a b; cases_rfl
  fadd_to := to_of (by intro a b; cases_rfl)
  fsub_to := to_of (by intro a b; cases_rfl)
  fmul_to := to_of (by intro a b; cases_rfl)
  fdiv_to := to_of (by intro a b; cases_rfl)
  preinc := pair_of (g := (fun x => F.add x F.one)) (g' := (fun x => F.add x F.one)) (by intro a; cases_rfl) (by intro a; cases_rfl)
  predec := pair_of (g := (fun x => F.sub x F.one)) (g' := (fun x => F.sub x F.one)) (by intro a; cases_rfl) (by intro a; cases_rfl)
  postinc := pair_of (g := (fun x => F.add x F.one)) (g' := id) (by intro a; cases_rfl) (by intro a; cases_rfl)
  postdec := pair_of (g := (fun x => F.sub x F.one)) (g' := id) (by intro a; cases_rfl) (by intro a; cases_rfl)
  flt := lane2_of (by intro a b; cases_rfl) (neg_bit' Word.flt)
  fgt := lane2_of (by intro a b; cases_rfl) bit_gt
  feq := lane2_of (by intro a b; cases_rfl) (neg_bit' Word.feq)
  fle := lane2_of (by intro a b; cases_rfl) (neg_bit' Word.fle)
  fge := lane2_of (by intro a b; cases_rfl) bit_ge
  fabs := bits1_of fabs_bits (by intro a; cases_rfl)
  sqrt := by intro a; cases_rfl
  set_bits := bits2_of or_bits (by intro a b; cases_rfl)
  toggle_bits := bits2_of xor_bits (by intro a b; cases_rfl)

theorem V8Portable.notEqual (F : Arith Word) : (V8Portable.ops F).NotEqual where
  fne := lane2_of (by intro a b; cases_rfl) (neg_bit' Word.fne)
  fland := lane2_of (by intro a b; cases_rfl) fland_mask
  flor := lane2_of (by intro a b; cases_rfl) flor_mask

theorem V8Portable.notBits (F : Arith Word) : Lane1 (V8Portable.ops F).flnot (fun a => mask (a = 0)) := lane1_of (by intro a; cases_rfl) ite_mask

theorem V8Portable.opposite (F : Arith Word) : (V8Portable.ops F).Opposite := by intro a; cases_rfl

theorem V8Portable.copyLess (F : Arith Word) : Lane2 (V8Portable.ops F).copysign copyLess := by intro a b; cases_rfl

theorem V8Portable.clear (F : Arith Word) : (V8Portable.ops F).Clear := clear_of (by intro a b; cases_rfl)

theorem V8Portable.increments {W : Type} (F : Arith W) : Updates 1 F.add (fun m p a => some (V8Portable.increment F m p a)) := updates_of_words (fun _ _ _ => by kernel_rfl)

theorem V8Portable.decrements {W : Type} (F : Arith W) : Updates 1 F.sub (fun m p a => some (V8Portable.decrement F m p a)) := updates_of_words (fun _ _ _ => by kernel_rfl)

theorem V8Portable.scales {W : Type} (F : Arith W) : Updates 1 F.mul (fun m p a => some (V8Portable.scale F m p a)) := updates_of_words (fun _ _ _ => by kernel_rfl)

theorem V8Portable.fused {K : Type} [Field K] (sqrt rs rc : K → K) : FusedRight (V8Portable.fma (exact K sqrt rs rc)) (V8Portable.fms (exact K sqrt rs rc)) (V8Portable.fnms (exact K sqrt rs rc)) :=
  ⟨by intro a b c; cases_rfl, by intro a b c; cases_rfl, by intro a b c; cases_rfl⟩

theorem V8Portable.inverse {W : Type} (F : Arith W) : Lane1 (V8Portable.rsqrt F) (fun a => F.sqrt (F.div F.one a)) ∧ Lane1 (V8Portable.rcp F) (F.div F.one) :=
  ⟨by intro a; cases_rfl, by intro a; cases_rfl⟩

/-- The operators and functions of /repo/src/util/v8/v8_avx.h. -/
def V8Avx.ops (F : Arith Word) : Ops 2 where
  iadd := V8Avx.iadd
  isub := V8Avx.isub
  imul := V8Avx.imul
  ixor := V8Avx.ixor
  iand := V8Avx.iand
  ior := V8Avx.ior
  iadd_to := V8Avx.iadd_to
  isub_to := V8Avx.isub_to
  imul_to := V8Avx.imul_to
  ixor_to := V8Avx.ixor_to
  iand_to := V8Avx.iand_to
  ior_to := V8Avx.ior_to
  ineg := V8Avx.ineg
  inot := V8Avx.inot
  ilnot := V8Avx.ilnot
  ilt := V8Avx.ilt
  igt := V8Avx.igt
  ieq := V8Avx.ieq
  ine := V8Avx.ine
  ile := V8Avx.ile
  ige := V8Avx.ige
  iland := V8Avx.iland
  ilor := V8Avx.ilor
  abs := V8Avx.abs
  czero := V8Avx.czero
  notczero := V8Avx.notczero
  merge := V8Avx.merge
  any := V8Avx.any
  all := V8Avx.all
  fadd := V8Avx.fadd F
  fsub := V8Avx.fsub F
  fmul := V8Avx.fmul F
  fdiv := V8Avx.fdiv F
  fadd_to := V8Avx.fadd_to F
  fsub_to := V8Avx.fsub_to F
  fmul_to := V8Avx.fmul_to F
  fdiv_to := V8Avx.fdiv_to F
  preinc := V8Avx.preinc F
  predec := V8Avx.predec F
  postinc := V8Avx.postinc F
  postdec := V8Avx.postdec F
  fneg := V8Avx.fneg F
  flnot := V8Avx.flnot
  flt := V8Avx.flt
  fgt := V8Avx.fgt
  feq := V8Avx.feq
  fne := V8Avx.fne
  fle := V8Avx.fle
  fge := V8Avx.fge
  fland := V8Avx.fland
  flor := V8Avx.flor
  fabs := V8Avx.fabs
  sqrt := V8Avx.sqrt F
  copysign := V8Avx.copysign
  clear_bits := V8Avx.clear_bits
  set_bits := V8Avx.set_bits
  toggle_bits := V8Avx.toggle_bits

theorem V8Avx.right (F : Arith Word) : (V8Avx.ops F).Right F where
  iadd := by intro a b; cases_rfl
  isub := by intro a b; cases_rfl
  imul := by intro a b; cases_rfl
  ixor := by intro a b; cases_rfl
  iand := by intro a b; cases_rfl
  ior := by intro a b; cases_rfl
  iadd_to := to_of (by intro a b; cases_rfl)
  isub_to := to_of (by intro a b; cases_rfl)
  imul_to := to_of (by intro a b; cases_rfl)
  ixor_to := to_of (by intro a b; cases_rfl)
  iand_to := to_of (by intro a b; cases_rfl)
  ior_to := to_of (by intro a b; cases_rfl)
  ineg := by intro a; cases_rfl
  inot := lane1_of (by intro a; cases_rfl) xor_ones
  ilnot := lane1_of (by intro a; cases_rfl) lnot_mask
  ilt := lane2_of (by intro a b; cases_rfl) ilt_mask
  igt := lane2_of (by intro a b; cases_rfl) igt_mask
  ieq := lane2_of (by intro a b; cases_rfl) ieq_mask
  ine := lane2_of (by intro a b; cases_rfl) ine_mask
  ile := lane2_of (by intro a b; cases_rfl) ile_mask
  ige := lane2_of (by intro a b; cases_rfl) ige_mask
  iland := lane2_of (by intro a b; cases_rfl) iland_mask
  ilor := lane2_of (by intro a b; cases_rfl) ilor_mask
  abs := abs_of (by intro a; cases_rfl)
  czero := czero_of andnot_bits (by intro a b; cases_rfl)
  notczero := bits2_of and_bits (by intro a b; cases_rfl)
  merge := bits3_of merge_bits (by intro a b c; cases_rfl)
  any := any8
  all := every8
  fadd := by intro a b; cases_rfl
  fsub := by intro a b; cases_rfl
  fmul := by intro a b; cases_rfl
  fdiv := by intro a b; cases_rfl
  fadd_to := to_of (by intro a b; cases_rfl)
  fsub_to := to_of (by intro a b; cases_rfl)
  fmul_to := to_of (by intro a b; cases_rfl)
  fdiv_to := to_of (by intro a b; cases_rfl)
  preinc := pair_of (g := (fun x => F.add x F.one)) (g' := (fun x => F.add x F.one)) (by intro a; cases_rfl) (by intro a; cases_rfl)
  predec := pair_of (g := (fun x => F.sub x F.one)) (g' := (fun x => F.sub x F.one)) (by intro a; cases_rfl) (by intro a; cases_rfl)
  postinc := pair_of (g := (fun x => F.add x F.one)) (g' := id) (by intro a; cases_rfl) (by intro a; cases_rfl)
  postdec := pair_of (g := (fun x => F.sub x F.one)) (g' := id) (by intro a; cases_rfl) (by intro a; cases_rfl)
  flt := lane2_of (by intro a b; cases_rfl) (cmp_mask Word.flt)
  fgt := lane2_of (by intro a b; cases_rfl) cmp_gt
  feq := lane2_of (by intro a b; cases_rfl) (cmp_mask Word.feq)
  fle := lane2_of (by intro a b; cases_rfl) (cmp_mask Word.fle)
  fge := lane2_of (by intro a b; cases_rfl) cmp_ge
  fabs := bits1_of fabs_bits' (by intro a; cases_rfl)
  sqrt := by intro a; cases_rfl
  set_bits := bits2_of or_bits (by intro a b; cases_rfl)
  toggle_bits := bits2_of xor_bits (by intro a b; cases_rfl)

theorem V8Avx.ordered (F : Arith Word) : Lane2 (V8Avx.ops F).fne (fun a b => mask (Word.fneO a b)) ∧ Lane2 (V8Avx.ops F).fland (fun a b => mask (Word.fneO a 0 && Word.fneO b 0)) ∧
    Lane2 (V8Avx.ops F).flor (fun a b => mask (Word.fneO a 0 || Word.fneO b 0)) :=
  ⟨lane2_of (by intro a b; cases_rfl) (cmp_mask Word.fneO), lane2_of (by intro a b; cases_rfl) landO_mask, lane2_of (by intro a b; cases_rfl) lorO_mask⟩

theorem V8Avx.not (F : Arith Word) : (V8Avx.ops F).Not := lane1_of (by intro a; cases_rfl) zero_mask

theorem V8Avx.minus (F : Arith Word) : Lane1 (V8Avx.ops F).fneg (F.sub F.zero) := by intro a; cases_rfl

theorem V8Avx.copySign (F : Arith Word) : (V8Avx.ops F).CopySign := copysign_of (by intro a b; cases_rfl)

theorem V8Avx.clear (F : Arith Word) : (V8Avx.ops F).Clear := clear_of (by intro a b; cases_rfl)

theorem V8Avx.increments {W : Type} (F : Arith W) : Updates 8 F.add (V8Avx.increment F) := updates_of_load2 fun _ _ _ => rfl

theorem V8Avx.decrements {W : Type} (F : Arith W) : Updates 8 F.sub (V8Avx.decrement F) := updates_of_load2 fun _ _ _ => rfl

theorem V8Avx.scales {W : Type} (F : Arith W) : Updates 8 F.mul (V8Avx.scale F) := updates_of_load2 fun _ _ _ => rfl

theorem V8Avx.fused {K : Type} [Field K] (sqrt rs rc : K → K) : FusedRight (V8Avx.fma (exact K sqrt rs rc)) (V8Avx.fms (exact K sqrt rs rc)) (V8Avx.fnms (exact K sqrt rs rc)) :=
  ⟨by intro a b c; cases_rfl, by intro a b c; cases_rfl, by intro a b c; cases_rfl⟩

theorem V8Avx.newtonRsqrt {K : Type} [Field K] [CharZero K] (sqrt rs rc : K → K) : RefinesRsqrt rs (V8Avx.rsqrt (exact K sqrt rs rc)) :=
  refinesRsqrt_of (by intro F a; cases_rfl)

theorem V8Avx.newtonRcp {K : Type} [Field K] (sqrt rs rc : K → K) : RefinesRcp rc (V8Avx.rcp (exact K sqrt rs rc)) := refinesRcp_of (by intro a; cases_rfl)

/-- The operators and functions of /repo/src/util/v8/v8_avx2.h. -/
def V8Avx2.ops (F : Arith Word) : Ops 2 where
  iadd := V8Avx2.iadd
  isub := V8Avx2.isub
  imul := V8Avx2.imul
  ixor := V8Avx2.ixor
  iand := V8Avx2.iand
  ior := V8Avx2.ior
  iadd_to := V8Avx2.iadd_to
  isub_to := V8Avx2.isub_to
  imul_to := V8Avx2.imul_to
  ixor_to := V8Avx2.ixor_to
  iand_to := V8Avx2.iand_to
  ior_to := V8Avx2.ior_to
  ineg := V8Avx2.ineg
  inot := V8Avx2.inot
  ilnot := V8Avx2.ilnot
  ilt := V8Avx2.ilt
  igt := V8Avx2.igt
  ieq := V8Avx2.ieq
  ine := V8Avx2.ine
  ile := V8Avx2.ile
  ige := V8Avx2.ige
  iland := V8Avx2.iland
  ilor := V8Avx2.ilor
  abs := V8Avx2.abs
  czero := V8Avx2.czero
  notczero := V8Avx2.notczero
  merge := V8Avx2.merge
  any := V8Avx2.any
  all := V8Avx2.all
  fadd := V8Avx2.fadd F
  fsub := V8Avx2.fsub F
  fmul := V8Avx2.fmul F
  fdiv := V8Avx2.fdiv F
  fadd_to := V8Avx2.fadd_to F
  fsub_to := V8Avx2.fsub_to F
  fmul_to := V8Avx2.fmul_to F
  fdiv_to := V8Avx2.fdiv_to F
  preinc := V8Avx2.preinc F
  predec := V8Avx2.predec F
  postinc := V8Avx2.postinc F
  postdec := V8Avx2.postdec F
  fneg := V8Avx2.fneg F
  flnot := V8Avx2.flnot
  flt := V8Avx2.flt
  fgt := V8Avx2.fgt
  feq := V8Avx2.feq
  fne := V8Avx2.fne
  fle := V8Avx2.fle
  fge := V8Avx2.fge
  fland := V8Avx2.fland
  flor := V8Avx2.flor
  fabs := V8Avx2.fabs
  sqrt := V8Avx2.sqrt F
  copysign := V8Avx2.copysign
  clear_bits := V8Avx2.clear_bits
  set_bits := V8Avx2.set_bits
  toggle_bits := V8Avx2.toggle_bits

theorem V8Avx2.right (F : Arith Word) : (V8Avx2.ops F).Right F where
  iadd := by intro a b; cases_rfl
  isub := by intro a b; cases_rfl
  imul := by intro a b; cases_rfl
  ixor := by intro a b; cases_rfl
  iand := by intro a b; cases_rfl
  ior := by intro a b; cases_rfl
  iadd_to := to_of (by intro a b; cases_rfl)
  isub_to := to_of (by intro a b; cases_rfl)
  imul_to := to_of (by intro a b; cases_rfl)
  ixor_to := to_of (by intro a b; cases_rfl)
  iand_to := to_of (by intro a b; cases_rfl)
  ior_to := to_of (by intro a b; cases_rfl)
  ineg := by intro a; cases_rfl
  inot := lane1_of (by intro a; cases_rfl) xor_ones
  ilnot := lane1_of (by intro a; cases_rfl) lnot_mask
  ilt := lane2_of (by intro a b; cases_rfl) ilt_mask
  igt := lane2_of (by intro a b; cases_rfl) igt_mask
  ieq := lane2_of (by intro a b; cases_rfl) ieq_mask
  ine := lane2_of (by intro a b; cases_rfl) ine_mask
  ile := lane2_of (by intro a b; cases_rfl) ile_mask
  ige := lane2_of (by intro a b; cases_rfl) ige_mask
  iland := lane2_of (by intro a b; cases_rfl) iland_mask
  ilor := lane2_of (by intro a b; cases_rfl) ilor_mask
  abs := abs_of (by intro a; cases_rfl)
  czero := czero_of andnot_bits (by intro a b; cases_rfl)
  notczero := bits2_of and_bits (by intro a b; cases_rfl)
  merge := bits3_of merge_bits (by intro a b c; cases_rfl)
  any := any8
  all := every8
  fadd := by intro a b; cases_rfl
  fsub := by intro a b; cases_rfl
  fmul := by intro a b; cases_rfl
  fdiv := by intro a b; cases_rfl
  fadd_to := to_of (by intro a b; cases_rfl)
  fsub_to := to_of (by intro a b; cases_rfl)
  fmul_to := to_of (by intro a b; cases_rfl)
  fdiv_to := to_of (by intro a b; cases_rfl)
  preinc := pair_of (g := (fun x => F.add x F.one)) (g' := (fun x => F.add x F.one)) (by intro a; cases_rfl) (by intro a; cases_rfl)
  predec := pair_of (g := (fun x => F.sub x F.one)) (g' := (fun x => F.sub x F.one)) (by intro a; cases_rfl) (by intro a; cases_rfl)
  postinc := pair_of (g := (fun x => F.add x F.one)) (g' := id) (by intro a; cases_rfl) (by intro a; cases_rfl)
  postdec := pair_of (g := (fun x => F.sub x F.one)) (g' := id) (by intro a; cases_rfl) (by intro a; cases_rfl)
  flt := lane2_of (by intro a b; cases_rfl) (cmp_mask Word.flt)
  fgt := lane2_of (by intro a b; cases_rfl) cmp_gt
  feq := lane2_of (by intro a b; cases_rfl) (cmp_mask Word.feq)
  fle := lane2_of (by intro a b; cases_rfl) (cmp_mask Word.fle)
  fge := lane2_of (by intro a b; cases_rfl) cmp_ge
  fabs := bits1_of fabs_bits' (by intro a; cases_rfl)
  sqrt := by intro a; cases_rfl
  set_bits := bits2_of or_bits (by intro a b; cases_rfl)
  toggle_bits := bits2_of xor_bits (by intro a b; cases_rfl)

theorem V8Avx2.ordered (F : Arith Word) : Lane2 (V8Avx2.ops F).fne (fun a b => mask (Word.fneO a b)) ∧ Lane2 (V8Avx2.ops F).fland (fun a b => mask (Word.fneO a 0 && Word.fneO b 0)) ∧
    Lane2 (V8Avx2.ops F).flor (fun a b => mask (Word.fneO a 0 || Word.fneO b 0)) :=
  ⟨lane2_of (by intro a b; cases_rfl) (cmp_mask Word.fneO), lane2_of (by intro a b; cases_rfl) landO_mask, lane2_of (by intro a b; cases_rfl) lorO_mask⟩

theorem V8Avx2.not (F : Arith Word) : (V8Avx2.ops F).Not := lane1_of (by intro a; cases_rfl) zero_mask

theorem V8Avx2.minus (F : Arith Word) : Lane1 (V8Avx2.ops F).fneg (F.sub F.zero) := by intro a; cases_rfl

theorem V8Avx2.copySign (F : Arith Word) : (V8Avx2.ops F).CopySign := copysign_of (by intro a b; cases_rfl)

theorem V8Avx2.clear (F : Arith Word) : (V8Avx2.ops F).Clear := clear_of (by intro a b; cases_rfl)

theorem V8Avx2.increments {W : Type} (F : Arith W) : Updates 8 F.add (V8Avx2.increment F) := updates_of_load2 fun _ _ _ => rfl

theorem V8Avx2.decrements {W : Type} (F : Arith W) : Updates 8 F.sub (V8Avx2.decrement F) := updates_of_load2 fun _ _ _ => rfl

theorem V8Avx2.scales {W : Type} (F : Arith W) : Updates 8 F.mul (V8Avx2.scale F) := updates_of_load2 fun _ _ _ => rfl

theorem V8Avx2.fused {K : Type} [Field K] (sqrt rs rc : K → K) : FusedRight (V8Avx2.fma (exact K sqrt rs rc)) (V8Avx2.fms (exact K sqrt rs rc)) (V8Avx2.fnms (exact K sqrt rs rc)) :=
  ⟨by intro a b c; cases_rfl, by intro a b c; cases_rfl, by intro a b c; cases_rfl⟩

theorem V8Avx2.newtonRsqrt {K : Type} [Field K] [CharZero K] (sqrt rs rc : K → K) : RefinesRsqrt rs (V8Avx2.rsqrt (exact K sqrt rs rc)) :=
  refinesRsqrt_of (by intro F a; cases_rfl)

theorem V8Avx2.newtonRcp {K : Type} [Field K] (sqrt rs rc : K → K) : RefinesRcp rc (V8Avx2.rcp (exact K sqrt rs rc)) := refinesRcp_of (by intro a; cases_rfl)

/-- The operators and functions of /repo/src/util/v16/v16_portable.h. -/
def V16Portable.ops (F : Arith Word) : Ops 4 where
  iadd := V16Portable.iadd
  isub := V16Portable.isub
  imul := V16Portable.imul
  ixor := V16Portable.ixor
  iand := V16Portable.iand
  ior := V16Portable.ior
  iadd_to := V16Portable.iadd_to
  isub_to := V16Portable.isub_to
  imul_to := V16Portable.imul_to
  ixor_to := V16Portable.ixor_to
  iand_to := V16Portable.iand_to
  ior_to := V16Portable.ior_to
  ineg := V16Portable.ineg
  inot := V16Portable.inot
  ilnot := V16Portable.ilnot
  ilt := V16Portable.ilt
  igt := V16Portable.igt
  ieq := V16Portable.ieq
  ine := V16Portable.ine
  ile := V16Portable.ile
  ige := V16Portable.ige
  iland := V16Portable.iland
  ilor := V16Portable.ilor
  abs := V16Portable.abs
  czero := V16Portable.czero
  notczero := V16Portable.notczero
  merge := V16Portable.merge
  any := V16Portable.any
  all := V16Portable.all
  fadd := V16Portable.fadd F
  fsub := V16Portable.fsub F
  fmul := V16Portable.fmul F
  fdiv := V16Portable.fdiv F
  fadd_to := V16Portable.fadd_to F
  fsub_to := V16Portable.fsub_to F
  fmul_to := V16Portable.fmul_to F
  fdiv_to := V16Portable.fdiv_to F
  preinc := V16Portable.preinc F
  predec := V16Portable.predec F
  postinc := V16Portable.postinc F
  postdec := V16Portable.postdec F
  fneg := V16Portable.fneg
  flnot := V16Portable.flnot
  flt := V16Portable.flt
  fgt := V16Portable.fgt
  feq := V16Portable.feq
  fne := V16Portable.fne
  fle := V16Portable.fle
  fge := V16Portable.fge
  fland := V16Portable.fland
  flor := V16Portable.flor
  fabs := V16Portable.fabs
  sqrt := V16Portable.sqrt F
  copysign := V16Portable.copysign
  clear_bits := V16Portable.clear_bits
  set_bits := V16Portable.set_bits
  toggle_bits := V16Portable.toggle_bits

theorem V16Portable.right (F : Arith Word) : (V16Portable.ops F).Right F where
  iadd := by intro a b; cases_rfl
  isub := by intro a b; cases_rfl
  imul := by intro a b; cases_rfl
  ixor := by intro a b; cases_rfl
  iand := by intro a b; cases_rfl
  ior := by intro a b; cases_rfl
  iadd_to := to_of (by intro a b; cases_rfl)
  isub_to := to_of (by intro a b; cases_rfl)
  imul_to := to_of (by intro a b; cases_rfl)
  ixor_to := to_of (by intro a b; cases_rfl)
  iand_to := to_of (by intro a b; cases_rfl)
  ior_to := to_of (by intro a b; cases_rfl)
  ineg := by intro a; cases_rfl
  inot := by intro a; cases_rfl
  ilnot := lane1_of (by intro a; cases_rfl) lnot_mask
  ilt := lane2_of (by intro a b; cases_rfl) ilt_mask
  igt := lane2_of (by intro a b; cases_rfl) igt_mask
  ieq := lane2_of (by intro a b; cases_rfl) ieq_mask
  ine := lane2_of (by intro a b; cases_rfl) ine_mask
  ile := lane2_of (by intro a b; cases_rfl) ile_mask
  ige := lane2_of (by intro a b; cases_rfl) ige_mask
  iland := lane2_of (by intro a b; cases_rfl) iland_mask
  ilor := lane2_of (by intro a b; cases_rfl) ilor_mask
  abs := abs_of (by intro a; cases_rfl)
  czero := czero_of and_not_bits (by intro a b; cases_rfl)
  notczero := bits2_of and_bits' (by intro a b; cases_rfl)
  merge := bits3_of merge_bits' (by intro a b c; cases_rfl)
  any := any16
  all := every16
  fadd := by intro a b; cases_rfl
  fsub := by intro a b; cases_rfl
  fmul := by intro a b; cases_rfl
  fdiv := by intro a b; cases_rfl
  fadd_to := to_of (by intro a b; cases_rfl)
  fsub_to := to_of (by intro a b; cases_rfl)
  fmul_to := to_of (by intro a b; cases_rfl)
  fdiv_to := to_of (by intro a b; cases_rfl)
  preinc := pair_of (g := (fun x => F.add x F.one)) (g' := (fun x => F.add x F.one)) (by intro a; cases_rfl) (by intro a; cases_rfl)
  predec := pair_of (g := (fun x => F.sub x F.one)) (g' := (fun x => F.sub x F.one)) (by intro a; cases_rfl) (by intro a; cases_rfl)
  postinc := pair_of (g := (fun x => F.add x F.one)) (g' := id) (by intro a; cases_rfl) (by intro a; cases_rfl)
  postdec := pair_of (g := (fun x => F.sub x F.one)) (g' := id) (by intro a; cases_rfl) (by intro a; cases_rfl)
  flt := lane2_of (by intro a b; cases_rfl) (neg_bit' Word.flt)
  fgt := lane2_of (by intro a b; cases_rfl) bit_gt
  feq := lane2_of (by intro a b; cases_rfl) (neg_bit' Word.feq)
  fle := lane2_of (by intro a b; cases_rfl) (neg_bit' Word.fle)
  fge := lane2_of (by intro a b; cases_rfl) bit_ge
  fabs := bits1_of fabs_bits (by intro a; cases_rfl)
  sqrt := by intro a; cases_rfl
  set_bits := bits2_of or_bits (by intro a b; cases_rfl)
  toggle_bits := bits2_of xor_bits (by intro a b; cases_rfl)

theorem V16Portable.notEqual (F : Arith Word) : (V16Portable.ops F).NotEqual where
  fne := lane2_of (by intro a b; cases_rfl) (neg_bit' Word.fne)
  fland := lane2_of (by intro a b; cases_rfl) fland_mask
  flor := lane2_of (by intro a b; cases_rfl) flor_mask

theorem V16Portable.notBits (F : Arith Word) : Lane1 (V16Portable.ops F).flnot (fun a => mask (a = 0)) := lane1_of (by intro a; cases_rfl) ite_mask

theorem V16Portable.opposite (F : Arith Word) : (V16Portable.ops F).Opposite := by intro a; cases_rfl

theorem V16Portable.copyLess (F : Arith Word) : Lane2 (V16Portable.ops F).copysign copyLess := by intro a b; cases_rfl

theorem V16Portable.clear (F : Arith Word) : (V16Portable.ops F).Clear := clear_of (by intro a b; cases_rfl)

theorem V16Portable.increments {W : Type} (F : Arith W) : Updates 1 F.add (fun m p a => some (V16Portable.increment F m p a)) := updates_of_words (fun _ _ _ => by kernel_rfl)

theorem V16Portable.decrements {W : Type} (F : Arith W) : Updates 1 F.sub (fun m p a => some (V16Portable.decrement F m p a)) := updates_of_words (fun _ _ _ => by kernel_rfl)

theorem V16Portable.scales {W : Type} (F : Arith W) : Updates 1 F.mul (fun m p a => some (V16Portable.scale F m p a)) := updates_of_words (fun _ _ _ => by kernel_rfl)

theorem V16Portable.fused {K : Type} [Field K] (sqrt rs rc : K → K) : FusedRight (V16Portable.fma (exact K sqrt rs rc)) (V16Portable.fms (exact K sqrt rs rc)) (V16Portable.fnms (exact K sqrt rs rc)) :=
  ⟨by intro a b c; cases_rfl, by intro a b c; cases_rfl, by intro a b c; cases_rfl⟩

theorem V16Portable.inverse {W : Type} (F : Arith W) : Lane1 (V16Portable.rsqrt F) (fun a => F.sqrt (F.div F.one a)) ∧ Lane1 (V16Portable.rcp F) (F.div F.one) :=
  ⟨by intro a; cases_rfl, by intro a; cases_rfl⟩

/-- The operators and functions of /repo/src/util/v16/v16_avx512.h. -/
def V16Avx512.ops (F : Arith Word) : Ops 4 where
  iadd := V16Avx512.iadd
  isub := V16Avx512.isub
  imul := V16Avx512.imul
  ixor := V16Avx512.ixor
  iand := V16Avx512.iand
  ior := V16Avx512.ior
  iadd_to := V16Avx512.iadd_to
  isub_to := V16Avx512.isub_to
  imul_to := V16Avx512.imul_to
  ixor_to := V16Avx512.ixor_to
  iand_to := V16Avx512.iand_to
  ior_to := V16Avx512.ior_to
  ineg := V16Avx512.ineg
  inot := V16Avx512.inot
  ilnot := V16Avx512.ilnot
  ilt := V16Avx512.ilt
  igt := V16Avx512.igt
  ieq := V16Avx512.ieq
  ine := V16Avx512.ine
  ile := V16Avx512.ile
  ige := V16Avx512.ige
  iland := V16Avx512.iland
  ilor := V16Avx512.ilor
  abs := V16Avx512.abs
  czero := V16Avx512.czero
  notczero := V16Avx512.notczero
  merge := V16Avx512.merge
  any := V16Avx512.any
  all := V16Avx512.all
  fadd := V16Avx512.fadd F
  fsub := V16Avx512.fsub F
  fmul := V16Avx512.fmul F
  fdiv := V16Avx512.fdiv F
  fadd_to := V16Avx512.fadd_to F
  fsub_to := V16Avx512.fsub_to F
  fmul_to := V16Avx512.fmul_to F
  fdiv_to := V16Avx512.fdiv_to F
  preinc := V16Avx512.preinc F
  predec := V16Avx512.predec F
  postinc := V16Avx512.postinc F
  postdec := V16Avx512.postdec F
  fneg := V16Avx512.fneg F
  flnot := V16Avx512.flnot
  flt := V16Avx512.flt
  fgt := V16Avx512.fgt
  feq := V16Avx512.feq
  fne := V16Avx512.fne
  fle := V16Avx512.fle
  fge := V16Avx512.fge
  fland := V16Avx512.fland
  flor := V16Avx512.flor
  fabs := V16Avx512.fabs
  sqrt := V16Avx512.sqrt F
  copysign := V16Avx512.copysign
  clear_bits := V16Avx512.clear_bits
  set_bits := V16Avx512.set_bits
  toggle_bits := V16Avx512.toggle_bits

theorem V16Avx512.right (F : Arith Word) : (V16Avx512.ops F).Right F where
  iadd := by intro a b; cases_rfl
  isub := by intro a b; cases_rfl
  imul := by intro a b; cases_rfl
  ixor := by intro a b; cases_rfl
  iand := by intro a b; cases_rfl
  ior := by intro a b; cases_rfl
  iadd_to := to_of (by intro a b; cases_rfl)
  isub_to := to_of (by intro a b; cases_rfl)
  imul_to := to_of (by intro a b; cases_rfl)
  ixor_to := to_of (by intro a b; cases_rfl)
  iand_to := to_of (by intro a b; cases_rfl)
  ior_to := to_of (by intro a b; cases_rfl)
  ineg := by intro a; cases_rfl
  inot := lane1_of (by intro a; cases_rfl) xor_ones
  ilnot := lane1_of (by intro a; cases_rfl) lnot_mask
  ilt := lane2_of (by intro a b; cases_rfl) ilt_mask
  igt := lane2_of (by intro a b; cases_rfl) igt_mask
  ieq := lane2_of (by intro a b; cases_rfl) ieq_mask
  ine := lane2_of (by intro a b; cases_rfl) ine_mask
  ile := lane2_of (by intro a b; cases_rfl) ile_mask
  ige := lane2_of (by intro a b; cases_rfl) ige_mask
  iland := lane2_of (by intro a b; cases_rfl) iland_mask
  ilor := lane2_of (by intro a b; cases_rfl) ilor_mask
  abs := abs_of (by intro a; cases_rfl)
  czero := czero_of and_not_bits (by intro a b; cases_rfl)
  notczero := bits2_of and_bits (by intro a b; cases_rfl)
  merge := bits3_of merge_bits' (by intro a b c; cases_rfl)
  any := any16
  all := every16
  fadd := by intro a b; cases_rfl
  fsub := by intro a b; cases_rfl
  fmul := by intro a b; cases_rfl
  fdiv := by intro a b; cases_rfl
  fadd_to := to_of (by intro a b; cases_rfl)
  fsub_to := to_of (by intro a b; cases_rfl)
  fmul_to := to_of (by intro a b; cases_rfl)
  fdiv_to := to_of (by intro a b; cases_rfl)
  preinc := pair_of (g := (fun x => F.add x F.one)) (g' := (fun x => F.add x F.one)) (by intro a; cases_rfl) (by intro a; cases_rfl)
  predec := pair_of (g := (fun x => F.sub x F.one)) (g' := (fun x => F.sub x F.one)) (by intro a; cases_rfl) (by intro a; cases_rfl)
  postinc := pair_of (g := (fun x => F.add x F.one)) (g' := id) (by intro a; cases_rfl) (by intro a; cases_rfl)
  postdec := pair_of (g := (fun x => F.sub x F.one)) (g' := id) (by intro a; cases_rfl) (by intro a; cases_rfl)
  flt := lane2_of (by intro a b; cases_rfl) (neg_bit' Word.flt)
  fgt := lane2_of (by intro a b; cases_rfl) bit_gt
  feq := lane2_of (by intro a b; cases_rfl) (neg_bit' Word.feq)
  fle := lane2_of (by intro a b; cases_rfl) (neg_bit' Word.fle)
  fge := lane2_of (by intro a b; cases_rfl) bit_ge
  fabs := bits1_of fabs_bits' (by intro a; cases_rfl)
  sqrt := by intro a; cases_rfl
  set_bits := bits2_of or_bits (by intro a b; cases_rfl)
  toggle_bits := bits2_of xor_bits (by intro a b; cases_rfl)

theorem V16Avx512.notEqual (F : Arith Word) : (V16Avx512.ops F).NotEqual where
  fne := lane2_of (by intro a b; cases_rfl) (neg_bit' Word.fne)
  fland := lane2_of (by intro a b; cases_rfl) fland_mask
  flor := lane2_of (by intro a b; cases_rfl) flor_mask

theorem V16Avx512.notBits (F : Arith Word) : Lane1 (V16Avx512.ops F).flnot (fun a => mask (a = 0)) := lane1_of (by intro a; cases_rfl) ite_mask

theorem V16Avx512.minus (F : Arith Word) : Lane1 (V16Avx512.ops F).fneg (F.sub F.zero) := by intro a; cases_rfl

theorem V16Avx512.copySign (F : Arith Word) : (V16Avx512.ops F).CopySign := copysign_of (by intro a b; cases_rfl)

theorem V16Avx512.clear (F : Arith Word) : (V16Avx512.ops F).Clear := clear_of (by intro a b; cases_rfl)

theorem V16Avx512.increments {W : Type} (F : Arith W) : Updates 16 F.add (V16Avx512.increment F) := updates_of_load4 fun _ _ _ => rfl

theorem V16Avx512.decrements {W : Type} (F : Arith W) : Updates 16 F.sub (V16Avx512.decrement F) := updates_of_load4 fun _ _ _ => rfl

theorem V16Avx512.scales {W : Type} (F : Arith W) : Updates 16 F.mul (V16Avx512.scale F) := updates_of_load4 fun _ _ _ => rfl

theorem V16Avx512.fused {K : Type} [Field K] (sqrt rs rc : K → K) : FusedRight (V16Avx512.fma (exact K sqrt rs rc)) (V16Avx512.fms (exact K sqrt rs rc)) (V16Avx512.fnms (exact K sqrt rs rc)) :=
  ⟨by intro a b c; cases_rfl, by intro a b c; cases_rfl, by intro a b c; cases_rfl⟩

theorem V16Avx512.newtonRsqrt {K : Type} [Field K] [CharZero K] (sqrt rs rc : K → K) : RefinesRsqrt rs (V16Avx512.rsqrt (exact K sqrt rs rc)) :=
  refinesRsqrt_of (by intro F a; cases_rfl)

theorem V16Avx512.newtonRcp {K : Type} [Field K] (sqrt rs rc : K → K) : RefinesRcp rc (V16Avx512.rcp (exact K sqrt rs rc)) := refinesRcp_of (by intro a; cases_rfl)

end Verif.Vector
