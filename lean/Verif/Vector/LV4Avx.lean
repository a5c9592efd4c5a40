import Verif.Vector.Lane

/-! Operators and functions of /repo/src/util/v4/v4_avx.h that compute; written by `tools/gen_lanes.py`. -/
namespace Verif.Vector.V4Avx

variable {W : Type}

/-- `any`, /repo/src/util/v4/v4_avx.h:150-153. -/
def any (a : Reg 1 Word) : Bool :=
  (((a 0 0 != 0) || (a 0 1 != 0)) || (a 0 2 != 0)) || (a 0 3 != 0)

/-- `all`, /repo/src/util/v4/v4_avx.h:155-158. -/
def all (a : Reg 1 Word) : Bool :=
  (((a 0 0 != 0) && (a 0 1 != 0)) && (a 0 2 != 0)) && (a 0 3 != 0)

/-- `operator +=`, /repo/src/util/v4/v4_avx.h:541-549,551. -/
def iadd_to (a b : Reg 1 Word) : Reg 1 Word :=
  let a_0 := (a 0 0) + (b 0 0)
  let a_1 := (a 0 1) + (b 0 1)
  let a_2 := (a 0 2) + (b 0 2)
  let a_3 := (a 0 3) + (b 0 3)
  let a := one (quad a_0 a_1 a_2 a_3)
  a

/-- `operator -=`, /repo/src/util/v4/v4_avx.h:541-549,552. -/
def isub_to (a b : Reg 1 Word) : Reg 1 Word :=
  let a_0 := (a 0 0) - (b 0 0)
  let a_1 := (a 0 1) - (b 0 1)
  let a_2 := (a 0 2) - (b 0 2)
  let a_3 := (a 0 3) - (b 0 3)
  let a := one (quad a_0 a_1 a_2 a_3)
  a

/-- `operator *=`, /repo/src/util/v4/v4_avx.h:541-549,553. -/
def imul_to (a b : Reg 1 Word) : Reg 1 Word :=
  let a_0 := (a 0 0) * (b 0 0)
  let a_1 := (a 0 1) * (b 0 1)
  let a_2 := (a 0 2) * (b 0 2)
  let a_3 := (a 0 3) * (b 0 3)
  let a := one (quad a_0 a_1 a_2 a_3)
  a

/-- `operator ^=`, /repo/src/util/v4/v4_avx.h:568-573. -/
def ixor_to (a b : Reg 1 Word) : Reg 1 Word :=
  let a := lift2 Word.xor a b
  a

/-- `operator &=`, /repo/src/util/v4/v4_avx.h:575-580. -/
def iand_to (a b : Reg 1 Word) : Reg 1 Word :=
  let a := lift2 Word.and a b
  a

/-- `operator |=`, /repo/src/util/v4/v4_avx.h:582-587. -/
def ior_to (a b : Reg 1 Word) : Reg 1 Word :=
  let a := lift2 Word.or a b
  a

/-- `operator -`, /repo/src/util/v4/v4_avx.h:604-613,624. -/
def ineg (a : Reg 1 Word) : Reg 1 Word :=
  let b_0 := -(a 0 0)
  let b_1 := -(a 0 1)
  let b_2 := -(a 0 2)
  let b_3 := -(a 0 3)
  let b := one (quad b_0 b_1 b_2 b_3)
  b

/-- `operator !`, /repo/src/util/v4/v4_avx.h:626-636. -/
def ilnot (a : Reg 1 Word) : Reg 1 Word :=
  let b_0 := -(Word.bit (!(a 0 0 != 0)))
  let b_1 := -(Word.bit (!(a 0 1 != 0)))
  let b_2 := -(Word.bit (!(a 0 2 != 0)))
  let b_3 := -(Word.bit (!(a 0 3 != 0)))
  let b := one (quad b_0 b_1 b_2 b_3)
  b

/-- `operator ~`, /repo/src/util/v4/v4_avx.h:638-653. -/
def inot (a : Reg 1 Word) : Reg 1 Word :=
  let u := (-1 : Word)
  let b := lift2 Word.xor a (set1 u : Reg 1 _)
  b

/-- `operator +`, /repo/src/util/v4/v4_avx.h:695-704,706. -/
def iadd (a b : Reg 1 Word) : Reg 1 Word :=
  let c_0 := (a 0 0) + (b 0 0)
  let c_1 := (a 0 1) + (b 0 1)
  let c_2 := (a 0 2) + (b 0 2)
  let c_3 := (a 0 3) + (b 0 3)
  let c := one (quad c_0 c_1 c_2 c_3)
  c

/-- `operator -`, /repo/src/util/v4/v4_avx.h:695-704,707. -/
def isub (a b : Reg 1 Word) : Reg 1 Word :=
  let c_0 := (a 0 0) - (b 0 0)
  let c_1 := (a 0 1) - (b 0 1)
  let c_2 := (a 0 2) - (b 0 2)
  let c_3 := (a 0 3) - (b 0 3)
  let c := one (quad c_0 c_1 c_2 c_3)
  c

/-- `operator *`, /repo/src/util/v4/v4_avx.h:695-704,708. -/
def imul (a b : Reg 1 Word) : Reg 1 Word :=
  let c_0 := (a 0 0) * (b 0 0)
  let c_1 := (a 0 1) * (b 0 1)
  let c_2 := (a 0 2) * (b 0 2)
  let c_3 := (a 0 3) * (b 0 3)
  let c := one (quad c_0 c_1 c_2 c_3)
  c

/-- `operator ^`, /repo/src/util/v4/v4_avx.h:716-723. -/
def ixor (a b : Reg 1 Word) : Reg 1 Word :=
  let c := lift2 Word.xor a b
  c

/-- `operator &`, /repo/src/util/v4/v4_avx.h:725-732. -/
def iand (a b : Reg 1 Word) : Reg 1 Word :=
  let c := lift2 Word.and a b
  c

/-- `operator |`, /repo/src/util/v4/v4_avx.h:734-741. -/
def ior (a b : Reg 1 Word) : Reg 1 Word :=
  let c := lift2 Word.or a b
  c

/-- `operator <`, /repo/src/util/v4/v4_avx.h:745-754,756. -/
def ilt (a b : Reg 1 Word) : Reg 1 Word :=
  let c_0 := -(Word.bit (Word.ilt (a 0 0) (b 0 0)))
  let c_1 := -(Word.bit (Word.ilt (a 0 1) (b 0 1)))
  let c_2 := -(Word.bit (Word.ilt (a 0 2) (b 0 2)))
  let c_3 := -(Word.bit (Word.ilt (a 0 3) (b 0 3)))
  let c := one (quad c_0 c_1 c_2 c_3)
  c

/-- `operator >`, /repo/src/util/v4/v4_avx.h:745-754,757. -/
def igt (a b : Reg 1 Word) : Reg 1 Word :=
  let c_0 := -(Word.bit (Word.igt (a 0 0) (b 0 0)))
  let c_1 := -(Word.bit (Word.igt (a 0 1) (b 0 1)))
  let c_2 := -(Word.bit (Word.igt (a 0 2) (b 0 2)))
  let c_3 := -(Word.bit (Word.igt (a 0 3) (b 0 3)))
  let c := one (quad c_0 c_1 c_2 c_3)
  c

/-- `operator ==`, /repo/src/util/v4/v4_avx.h:745-754,758. -/
def ieq (a b : Reg 1 Word) : Reg 1 Word :=
  let c_0 := -(Word.bit (Word.ieq (a 0 0) (b 0 0)))
  let c_1 := -(Word.bit (Word.ieq (a 0 1) (b 0 1)))
  let c_2 := -(Word.bit (Word.ieq (a 0 2) (b 0 2)))
  let c_3 := -(Word.bit (Word.ieq (a 0 3) (b 0 3)))
  let c := one (quad c_0 c_1 c_2 c_3)
  c

/-- `operator !=`, /repo/src/util/v4/v4_avx.h:745-754,759. -/
def ine (a b : Reg 1 Word) : Reg 1 Word :=
  let c_0 := -(Word.bit (Word.ine (a 0 0) (b 0 0)))
  let c_1 := -(Word.bit (Word.ine (a 0 1) (b 0 1)))
  let c_2 := -(Word.bit (Word.ine (a 0 2) (b 0 2)))
  let c_3 := -(Word.bit (Word.ine (a 0 3) (b 0 3)))
  let c := one (quad c_0 c_1 c_2 c_3)
  c

/-- `operator <=`, /repo/src/util/v4/v4_avx.h:745-754,760. -/
def ile (a b : Reg 1 Word) : Reg 1 Word :=
  let c_0 := -(Word.bit (Word.ile (a 0 0) (b 0 0)))
  let c_1 := -(Word.bit (Word.ile (a 0 1) (b 0 1)))
  let c_2 := -(Word.bit (Word.ile (a 0 2) (b 0 2)))
  let c_3 := -(Word.bit (Word.ile (a 0 3) (b 0 3)))
  let c := one (quad c_0 c_1 c_2 c_3)
  c

/-- `operator >=`, /repo/src/util/v4/v4_avx.h:745-754,761. -/
def ige (a b : Reg 1 Word) : Reg 1 Word :=
  let c_0 := -(Word.bit (Word.ige (a 0 0) (b 0 0)))
  let c_1 := -(Word.bit (Word.ige (a 0 1) (b 0 1)))
  let c_2 := -(Word.bit (Word.ige (a 0 2) (b 0 2)))
  let c_3 := -(Word.bit (Word.ige (a 0 3) (b 0 3)))
  let c := one (quad c_0 c_1 c_2 c_3)
  c

/-- `operator &&`, /repo/src/util/v4/v4_avx.h:745-754,762. -/
def iland (a b : Reg 1 Word) : Reg 1 Word :=
  let c_0 := -(Word.bit ((a 0 0 != 0) && (b 0 0 != 0)))
  let c_1 := -(Word.bit ((a 0 1 != 0) && (b 0 1 != 0)))
  let c_2 := -(Word.bit ((a 0 2 != 0) && (b 0 2 != 0)))
  let c_3 := -(Word.bit ((a 0 3 != 0) && (b 0 3 != 0)))
  let c := one (quad c_0 c_1 c_2 c_3)
  c

/-- `operator ||`, /repo/src/util/v4/v4_avx.h:745-754,763. -/
def ilor (a b : Reg 1 Word) : Reg 1 Word :=
  let c_0 := -(Word.bit ((a 0 0 != 0) || (b 0 0 != 0)))
  let c_1 := -(Word.bit ((a 0 1 != 0) || (b 0 1 != 0)))
  let c_2 := -(Word.bit ((a 0 2 != 0) || (b 0 2 != 0)))
  let c_3 := -(Word.bit ((a 0 3 != 0) || (b 0 3 != 0)))
  let c := one (quad c_0 c_1 c_2 c_3)
  c

/-- `abs`, /repo/src/util/v4/v4_avx.h:769-779. -/
def abs (a : Reg 1 Word) : Reg 1 Word :=
  let b_0 := if Word.ige (a 0 0) (0 : Word) then a 0 0 else -(a 0 0)
  let b_1 := if Word.ige (a 0 1) (0 : Word) then a 0 1 else -(a 0 1)
  let b_2 := if Word.ige (a 0 2) (0 : Word) then a 0 2 else -(a 0 2)
  let b_3 := if Word.ige (a 0 3) (0 : Word) then a 0 3 else -(a 0 3)
  let b := one (quad b_0 b_1 b_2 b_3)
  b

/-- `czero`, /repo/src/util/v4/v4_avx.h:781-788. -/
def czero (c a : Reg 1 Word) : Reg 1 Word :=
  let b := lift2 Word.andnot c a
  b

/-- `notczero`, /repo/src/util/v4/v4_avx.h:790-797. -/
def notczero (c a : Reg 1 Word) : Reg 1 Word :=
  let b := lift2 Word.and c a
  b

/-- `merge`, /repo/src/util/v4/v4_avx.h:799-809. -/
def merge (c t f : Reg 1 Word) : Reg 1 Word :=
  let c_v := c
  let tf := lift2 Word.or (lift2 Word.andnot c_v f) (lift2 Word.and c_v t)
  tf

/-- `operator +=`, /repo/src/util/v4/v4_avx.h:913-918,920. -/
def fadd_to (F : Arith W) (a b : Reg 1 W) : Reg 1 W :=
  let a := lift2 F.add a b
  a

/-- `operator -=`, /repo/src/util/v4/v4_avx.h:913-918,921. -/
def fsub_to (F : Arith W) (a b : Reg 1 W) : Reg 1 W :=
  let a := lift2 F.sub a b
  a

/-- `operator *=`, /repo/src/util/v4/v4_avx.h:913-918,922. -/
def fmul_to (F : Arith W) (a b : Reg 1 W) : Reg 1 W :=
  let a := lift2 F.mul a b
  a

/-- `operator /=`, /repo/src/util/v4/v4_avx.h:913-918,923. -/
def fdiv_to (F : Arith W) (a b : Reg 1 W) : Reg 1 W :=
  let a := lift2 F.div a b
  a

/-- `operator -`, /repo/src/util/v4/v4_avx.h:958-965. -/
def fneg (F : Arith W) (a : Reg 1 W) : Reg 1 W :=
  let b := lift2 F.sub (set1 F.zero : Reg 1 _) a
  b

/-- `operator !`, /repo/src/util/v4/v4_avx.h:967-974. -/
def flnot (a : Reg 1 Word) : Reg 1 Word :=
  let b := lift2 (Word.cmp Word.feq) (set1 (0 : Word) : Reg 1 _) a
  b

/-- `operator ++`, /repo/src/util/v4/v4_avx.h:978-988. -/
def preinc (F : Arith W) (a : Reg 1 W) : Reg 1 W × Reg 1 W :=
  let t := lift2 F.add a (set1 F.one : Reg 1 _)
  let a := t
  let b := t
  (a, b)

/-- `operator --`, /repo/src/util/v4/v4_avx.h:990-1000. -/
def predec (F : Arith W) (a : Reg 1 W) : Reg 1 W × Reg 1 W :=
  let t := lift2 F.sub a (set1 F.one : Reg 1 _)
  let a := t
  let b := t
  (a, b)

/-- `operator ++`, /repo/src/util/v4/v4_avx.h:1004-1014. -/
def postinc (F : Arith W) (a : Reg 1 W) : Reg 1 W × Reg 1 W :=
  let a_v := a
  let a := lift2 F.add a_v (set1 F.one : Reg 1 _)
  let b := a_v
  (a, b)

/-- `operator --`, /repo/src/util/v4/v4_avx.h:1016-1026. -/
def postdec (F : Arith W) (a : Reg 1 W) : Reg 1 W × Reg 1 W :=
  let a_v := a
  let a := lift2 F.sub a_v (set1 F.one : Reg 1 _)
  let b := a_v
  (a, b)

/-- `operator +`, /repo/src/util/v4/v4_avx.h:1030-1036,1038. -/
def fadd (F : Arith W) (a b : Reg 1 W) : Reg 1 W :=
  let c := lift2 F.add a b
  c

/-- `operator -`, /repo/src/util/v4/v4_avx.h:1030-1036,1039. -/
def fsub (F : Arith W) (a b : Reg 1 W) : Reg 1 W :=
  let c := lift2 F.sub a b
  c

/-- `operator *`, /repo/src/util/v4/v4_avx.h:1030-1036,1040. -/
def fmul (F : Arith W) (a b : Reg 1 W) : Reg 1 W :=
  let c := lift2 F.mul a b
  c

/-- `operator /`, /repo/src/util/v4/v4_avx.h:1030-1036,1041. -/
def fdiv (F : Arith W) (a b : Reg 1 W) : Reg 1 W :=
  let c := lift2 F.div a b
  c

/-- `operator <`, /repo/src/util/v4/v4_avx.h:1047-1053,1055. -/
def flt (a b : Reg 1 Word) : Reg 1 Word :=
  let c := lift2 (Word.cmp Word.flt) a b
  c

/-- `operator >`, /repo/src/util/v4/v4_avx.h:1047-1053,1056. -/
def fgt (a b : Reg 1 Word) : Reg 1 Word :=
  let c := lift2 (Word.cmp Word.fgt) a b
  c

/-- `operator ==`, /repo/src/util/v4/v4_avx.h:1047-1053,1057. -/
def feq (a b : Reg 1 Word) : Reg 1 Word :=
  let c := lift2 (Word.cmp Word.feq) a b
  c

/-- `operator <=`, /repo/src/util/v4/v4_avx.h:1047-1053,1058. -/
def fle (a b : Reg 1 Word) : Reg 1 Word :=
  let c := lift2 (Word.cmp Word.fle) a b
  c

/-- `operator >=`, /repo/src/util/v4/v4_avx.h:1047-1053,1059. -/
def fge (a b : Reg 1 Word) : Reg 1 Word :=
  let c := lift2 (Word.cmp Word.fge) a b
  c

/-- `operator !=`, /repo/src/util/v4/v4_avx.h:1047-1053,1060. -/
def fne (a b : Reg 1 Word) : Reg 1 Word :=
  let c := lift2 (Word.cmp Word.fne) a b
  c

/-- `operator &&`, /repo/src/util/v4/v4_avx.h:1064-1074. -/
def fland (a b : Reg 1 Word) : Reg 1 Word :=
  let vzero := (set1 (0 : Word) : Reg 1 _)
  let c := lift2 Word.and (lift2 (Word.cmp Word.fne) a vzero) (lift2 (Word.cmp Word.fne) b vzero)
  c

/-- `operator ||`, /repo/src/util/v4/v4_avx.h:1076-1086. -/
def flor (a b : Reg 1 Word) : Reg 1 Word :=
  let vzero := (set1 (0 : Word) : Reg 1 _)
  let c := lift2 Word.or (lift2 (Word.cmp Word.fne) a vzero) (lift2 (Word.cmp Word.fne) b vzero)
  c

/-- `fabs`, /repo/src/util/v4/v4_avx.h:1121-1128. -/
def fabs (a : Reg 1 Word) : Reg 1 Word :=
  let b := lift2 Word.andnot (set1 Word.sign : Reg 1 _) a
  b

/-- `sqrt`, /repo/src/util/v4/v4_avx.h:1130-1137. -/
def sqrt (F : Arith W) (a : Reg 1 W) : Reg 1 W :=
  let b := lift1 F.sqrt a
  b

/-- `copysign`, /repo/src/util/v4/v4_avx.h:1139-1149. -/
def copysign (a b : Reg 1 Word) : Reg 1 Word :=
  let t := (set1 Word.sign : Reg 1 _)
  let c := lift2 Word.or (lift2 Word.and t b) (lift2 Word.andnot t a)
  c

/-- `rsqrt`, /repo/src/util/v4/v4_avx.h:1162-1182. -/
def rsqrt (F : Arith W) (a : Reg 1 W) : Reg 1 W :=
  let a_v := a
  let b_v := lift1 F.rsqrtE a_v
  let b := lift2 F.add b_v (lift2 F.mul (set1 F.half : Reg 1 _) (lift2 F.sub b_v (lift2 F.mul a_v (lift2 F.mul b_v (lift2 F.mul b_v b_v)))))
  b

/-- `rcp`, /repo/src/util/v4/v4_avx.h:1193-1208. -/
def rcp (F : Arith W) (a : Reg 1 W) : Reg 1 W :=
  let a_v := a
  let b_v := lift1 F.rcpE a_v
  let b := lift2 F.sub (lift2 F.add b_v b_v) (lift2 F.mul a_v (lift2 F.mul b_v b_v))
  b

/-- `fma`, /repo/src/util/v4/v4_avx.h:1210-1217. -/
def fma (F : Arith W) (a b c : Reg 1 W) : Reg 1 W :=
  let d := lift2 F.add (lift2 F.mul a b) c
  d

/-- `fms`, /repo/src/util/v4/v4_avx.h:1219-1226. -/
def fms (F : Arith W) (a b c : Reg 1 W) : Reg 1 W :=
  let d := lift2 F.sub (lift2 F.mul a b) c
  d

/-- `fnms`, /repo/src/util/v4/v4_avx.h:1228-1235. -/
def fnms (F : Arith W) (a b c : Reg 1 W) : Reg 1 W :=
  let d := lift2 F.sub c (lift2 F.mul a b)
  d

/-- `clear_bits`, /repo/src/util/v4/v4_avx.h:1237-1244. -/
def clear_bits (m a : Reg 1 Word) : Reg 1 Word :=
  let b := lift2 Word.andnot m a
  b

/-- `set_bits`, /repo/src/util/v4/v4_avx.h:1246-1253. -/
def set_bits (m a : Reg 1 Word) : Reg 1 Word :=
  let b := lift2 Word.or m a
  b

/-- `toggle_bits`, /repo/src/util/v4/v4_avx.h:1255-1262. -/
def toggle_bits (m a : Reg 1 Word) : Reg 1 Word :=
  let b := lift2 Word.xor m a
  b

/-- `increment_4x1`, /repo/src/util/v4/v4_avx.h:1264-1268. -/
def increment (F : Arith W) (m : Memory W) (p : ℕ) (a : Reg 1 W) : Option (Memory W) := do
  let m ← store1 m p (lift2 F.add (← load1 m p) a)
  return m

/-- `decrement_4x1`, /repo/src/util/v4/v4_avx.h:1270-1274. -/
def decrement (F : Arith W) (m : Memory W) (p : ℕ) (a : Reg 1 W) : Option (Memory W) := do
  let m ← store1 m p (lift2 F.sub (← load1 m p) a)
  return m

/-- `scale_4x1`, /repo/src/util/v4/v4_avx.h:1276-1280. -/
def scale (F : Arith W) (m : Memory W) (p : ℕ) (a : Reg 1 W) : Option (Memory W) := do
  let m ← store1 m p (lift2 F.mul (← load1 m p) a)
  return m

/-- `trilinear`, /repo/src/util/v4/v4_avx.h:1285-1311. -/
def trilinear (F : Arith Word) (wl : Reg 1 Word) : Reg 1 Word × Reg 1 Word :=
  let l := (set1 F.one : Reg 1 _)
  let s := one (quad Word.sign (0 : Word) Word.sign (0 : Word))
  let z := wl
  let xy := lift2 F.add l (lift2 Word.xor s (shuffle z z (0 + 0 * 4 + 1 * 16 + 1 * 64)))
  let z := lift2 F.add l (lift2 Word.xor s (shuffle z z (2 + 2 * 4 + 2 * 16 + 2 * 64)))
  let xy := lift2 F.mul (shuffle xy xy (0 + 1 * 4 + 0 * 16 + 1 * 64)) (shuffle xy xy (2 + 2 * 4 + 3 * 16 + 3 * 64))
  let wl := lift2 F.mul xy (shuffle z z (0 + 0 * 4 + 0 * 16 + 0 * 64))
  let wh := lift2 F.mul xy (shuffle z z (1 + 1 * 4 + 1 * 16 + 1 * 64))
  (wl, wh)

end Verif.Vector.V4Avx
