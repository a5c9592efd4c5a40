#!/usr/bin/env python3
"""Transcribes the functions that move data in the vector classes of /repo/src/util (v4_sse.h ... v16_avx512.h) to Lean,
one instruction per line. Writes lean/Verif/Vector/<Name>.lean. Anything it does not understand stops it."""
import re, os, sys
SRC = "/repo/src/util/"
OUT = os.path.join(os.path.dirname(os.path.abspath(__file__)), "..", "lean", "Verif", "Vector")
FILES = [("v4/v4_sse.h", "V4Sse", 1), ("v4/v4_avx.h", "V4Avx", 1), ("v4/v4_avx2.h", "V4Avx2", 1), ("v8/v8_avx.h", "V8Avx", 2),
         ("v8/v8_avx2.h", "V8Avx2", 2), ("v16/v16_avx512.h", "V16Avx512", 4), ("v4/v4_portable.h", "V4Portable", 1),
         ("v4/v4_neon.h", "V4Neon", 1), ("v8/v8_portable.h", "V8Portable", 2), ("v16/v16_portable.h", "V16Portable", 4)]
WANT = re.compile(r"^(splat|shuffle|swap|transpose|(load|store|stream|clear|copy|swap)_\d+x\d+(_tr_p|_tr|_bc)?)$")

def strip(text):
    """Comments and `#if 0` blocks become blank, line numbers stay."""
    text = re.sub(r"//[^\n]*", "", text)
    text = re.sub(r"/\*.*?\*/", lambda m: "\n" * m.group(0).count("\n"), text, flags=re.S)
    out, skip = [], 0
    for line in text.split("\n"):
        if skip:
            if re.match(r"\s*#\s*if", line): skip += 1
            if re.match(r"\s*#\s*endif", line): skip -= 1
            out.append("")
        elif re.match(r"\s*#\s*if\s+0", line):
            skip = 1; out.append("")
        else: out.append(line)
    return "\n".join(out)

def split(s, sep):
    """Splits at separators outside of parentheses and brackets."""
    out, depth, cur = [], 0, ""
    for c in s:
        if c in "([{<" and not (c == "<"): depth += 1
        if c in ")]}": depth -= 1
        if c == sep and depth == 0: out.append(cur.strip()); cur = ""
        else: cur += c
    if cur.strip(): out.append(cur.strip())
    return out

def functions(text):
    for m in re.finditer(r"inline\s+(void|v4|v8|v16)\s+(\w+)\s*\(", text):
        name = m.group(2)
        if not WANT.match(name): continue
        i, depth = m.end(), 1
        while depth:
            depth += {"(": 1, ")": -1}.get(text[i], 0); i += 1
        params = text[m.end():i - 1]
        j = i
        while text[j] in " \t\n": j += 1
        if text[j] != "{": continue  # a declaration
        k, depth = j + 1, 1
        while depth:
            depth += {"{": 1, "}": -1}.get(text[k], 0); k += 1
        l0 = text.count("\n", 0, m.start()) + 1
        l1 = text.count("\n", 0, k) + 1
        yield m.group(1), name, params, text[j + 1:k - 1], l0, l1

class Fn:
    def __init__(self, ret, name, params, body, n):
        self.n, self.name, self.ret = n, name, ret
        self.ptr, self.lines, self.env, self.lanes = {}, [], {}, {}
        self.mat = {}; self.fault = False; self.zero = False; self.stores = False; self.reads = False
        self.inregs, self.outregs, self.tmpl = [], [], []
        rows = []
        for p in split(params, ","):
            v = re.sub(r"ALIGNED\(\d+\)", "", p)
            nm = re.search(r"(\w+)$", v.strip()).group(1)
            if "*" in v:
                if re.match(r"^a\d+$", nm): rows.append(nm)
                else: self.ptr[nm] = nm
            else:
                (self.inregs if ("const" in v) else self.outregs).append(nm)
        self.nrows = len(rows)
        for k, nm in enumerate(rows):
            assert int(nm[1:]) == k
            self.ptr[nm] = f"p {k//4} {k%4}"
        inout = name in ("swap", "transpose")
        ins = self.outregs if inout else self.inregs
        for k, nm in enumerate(ins): self.env[nm] = f"(v {k})"
        self.nin = len(ins)
        if self.ret != "void": self.outregs = []
        for st in split(body, ";"): self.stmt(re.sub(r"\s+", " ", st))

    # expressions ------------------------------------------------------------------------------------------------
    def ptrword(self, s):
        """`((T *) p)[k]` or None."""
        m = re.match(r"^\(\s*\(\s*(?:const\s+)?(?:int|float)\s*\*\s*(?:ALIGNED\(\d+\))?\s*\)\s*(\w+)\s*\)\s*\[\s*(\d+)\s*\]$", s)
        if not m: return None
        base, k = self.ptr[m.group(1)], int(m.group(2))
        return base if k == 0 else f"{base} + {k}"

    def addr(self, s):
        m = re.match(r"^\(\s*(?:const\s+)?(?:float|__m64)\s*\*\s*\)\s*(\w+)$", s)
        return self.ptr[m.group(1)]

    def num(self, s):
        m = re.match(r"^_MM_SHUFFLE\((.*)\)$", s)
        if m: return "(mmShuffle " + " ".join(x.strip() for x in m.group(1).split(",")) + ")"
        m = re.match(r"^\(\s*n \* permute<1,1,1,1>::value\s*\)$", s)
        if m: return "(n * (1 + 1 * 4 + 1 * 16 + 1 * 64))"
        m = re.match(r"^\(\s*permute<i0,i1,i2,i3>::value\s*\)$", s)
        if m: return "(i0 + i1 * 4 + i2 * 16 + i3 * 64)"
        if re.match(r"^0x[0-9a-fA-F]+$", s): return s.lower()
        if re.match(r"^[0-9+ ]+$", s): return f"({s})" if "+" in s else s
        raise Exception("number " + s)

    def lane(self, nm, k):
        """Word `k` of the vector `nm`."""
        if (nm, k) in self.lanes: return self.lanes[(nm, k)]
        e = self.env[nm]
        return f"{e} {k//4} {k%4}"

    def expr(self, s):
        s = s.strip()
        w = self.ptrword(s)
        if w is not None:
            self.reads = True
            return f"m ({w})" if " " in w else f"m {w}"
        m = re.match(r"^(\w+)\.v$", s)
        if m:
            if m.group(1) in self.env: return self.env[m.group(1)]
            raise Exception("unset " + s)
        m = re.match(r"^(\w+)(?:\.v)?\[\s*(\d+)\s*\]$", s)
        if m: return self.lane(m.group(1), int(m.group(2)))
        m = re.match(r"^(\w+)\.[if]\[\s*(\d+)\s*\]$", s)
        if m: return self.lane(m.group(1), int(m.group(2)))
        if s == "a.v[n]": return "(a.v n)"
        if s == "0": self.zero = True; return "0"
        m = re.match(r"^(\w+)\.val\[(\d)\]$", s)
        if m: return f"{self.mat[m.group(1)]}_{m.group(2)}"
        m = re.match(r"^(v\w+q\w*_f\d+)\s*\((.*)\)$", s)
        if m:
            f, a = m.group(1), split(m.group(2), ",")
            if f == "vld1q_f32": self.reads = True; return f"ldq m ({self.addr(a[0])})"
            if f == "vdupq_n_f32" and a == ["0.0f"]: self.zero = True; return "(setzero : Reg 1 α)"
            g = {"vtrn1q_f32": "trn1", "vtrn2q_f32": "trn2", "vtrn1q_f64": "trn1d", "vtrn2q_f64": "trn2d", "vuzp1q_f32": "uzp1", "vuzp2q_f32": "uzp2"}[f]
            return f"{g} {self.par(a[0])} {self.par(a[1])}"
        m = re.match(r"^(_mm\d*_\w+)\s*\((.*)\)$", s)
        if m: return self.call(m.group(1), split(m.group(2), ","))
        if re.match(r"^\w+$", s) and s in self.env: return self.env[s]
        raise Exception("expr " + s)

    def par(self, s):
        e = self.expr(s)
        depth, closed = 0, 0
        for i, c in enumerate(e):
            depth += {"(": 1, ")": -1}.get(c, 0)
            if depth == 0: closed = i; break
        return e if re.match(r"^[\w.]+$", e) or (e.startswith("(") and closed == len(e) - 1) else f"({e})"

    def call(self, f, a):
        w = {"_mm_": 1, "_mm256_": 2, "_mm512_": 4}[re.match(r"^_mm\d*_", f).group(0)]
        g = re.sub(r"^_mm\d*_", "", f)
        E = self.par
        if g == "load_ps": self.fault = self.reads = True; return f"(← load{w} m ({self.addr(a[0])}))"
        if g == "loadl_pi": self.reads = True; return f"loadl {E(a[0])} m ({self.addr(a[1])})"
        if g == "loadh_pi": self.reads = True; return f"loadh {E(a[0])} m ({self.addr(a[1])})"
        if g == "setzero_ps": self.zero = True; return f"(setzero : Reg {w} α)"
        if g == "set1_ps": return f"(set1 ({self.expr(a[0])}) : Reg {w} α)"
        if g == "setr_ps" and w == 1: return "one (quad " + " ".join(E(x) for x in a) + ")"
        if g in ("unpacklo_ps", "unpackhi_ps"): return f"{g[:-3]} {E(a[0])} {E(a[1])}"
        if g in ("movelh_ps", "movehl_ps"): return f"{g[:-3]} {E(a[0])} {E(a[1])}"
        if g == "shuffle_ps": return f"shuffle {E(a[0])} {E(a[1])} {self.num(a[2])}"
        if g == "permute2f128_ps": self.zero = True; return f"permute2f128 {E(a[0])} {E(a[1])} {self.num(a[2])}"
        if g == "extractf128_ps": return f"extractf128 {E(a[0])} {self.num(a[1])}"
        if g == "set_m128": return f"setM128 {E(a[0])} {E(a[1])}"
        if g == "shuffle_f32x4": return f"shuffleF32x4 {E(a[0])} {E(a[1])} {self.num(a[2])}"
        if g == "set_epi32": return "setEpi32 " + " ".join(self.num(x) for x in a)
        if g == "permutexvar_ps": return f"permutexvar {E(a[0])} {E(a[1])}"
        if g == "permutex2var_ps": return f"permutex2var {E(a[0])} {E(a[1])} {E(a[2])}"
        raise Exception("call " + f)

    # statements -------------------------------------------------------------------------------------------------
    def let(self, nm, rhs):
        nm = nm if nm != "m" else "m_"
        self.lines.append(f"  let {nm} := {rhs}")
        self.env[nm] = nm

    def stmt(self, s):
        s = re.sub(r"^ALWAYS_VECTORIZE ", "", s)
        if not s: return
        # structures of several registers
        m = re.match(r"^float32x4x4_t (\w+) = vld4q_f32\( (.*) \)$", s)
        if m:
            self.reads = True; nm = m.group(1); self.mat[nm] = nm
            for k in range(4): self.lines.append(f"  let {nm}_{k} := ld4 m ({self.addr(m.group(2))}) {k}")
            return
        m = re.match(r"^(\w+) = vtrnq_f32\( (\S+), (\S+) \)$", s)
        if m:
            nm = m.group(1); self.mat[nm] = nm
            for k in range(2): self.lines.append(f"  let {nm}_{k} := trn{k + 1} {self.par(m.group(2))} {self.par(m.group(3))}")
            return
        m = re.match(r"^(\w+)\.val\[(\d)\] = (.*)$", s)
        if m:
            self.mat[m.group(1)] = m.group(1); self.lines.append(f"  let {m.group(1)}_{m.group(2)} := {self.expr(m.group(3))}"); return
        m = re.match(r"^vst4q_f32\( (.*), (\w+) \)$", s)
        if m:
            self.stores = True; self.lines.append(f"  let m := st4 m ({self.addr(m.group(1))}) " + " ".join(f"{m.group(2)}_{k}" for k in range(4))); return
        m = re.match(r"^vst1q_f32\( (.*) \)$", s)
        if m:
            a = split(m.group(1), ","); self.stores = True
            self.lines.append(f"  let m := stq m ({self.addr(a[0])}) {self.par(a[1])}"); return
        m = re.match(r"^for\( int j = 0; j < (\d+); j\+\+ \) (.*)$", s)
        if m:
            b = m.group(2).strip("{} ")
            for j in range(int(m.group(1))):
                for t in split(b, ";"): self.stmt(t.replace("[j]", f"[{j}]"))
            return
        m = re.match(r"^(__m\d+i?|float32x4(?:x\d)?_t|int|v4|v8|v16) (.*)$", s)
        if m:
            for d in split(m.group(2), ","):
                if "=" in d:
                    x, e = d.split("=", 1); self.let(x.strip(), self.expr(e))
            return
        m = re.match(r"^return (\w+)$", s)
        if m: self.outregs = [m.group(1)]; return
        m = re.match(r"^(_mm\d*)_(store_ps|stream_ps|storel_pi|storeh_pi)\s*\((.*)\)$", s)
        if m:
            w = {"_mm": 1, "_mm256": 2, "_mm512": 4}[m.group(1)]
            a = split(m.group(3), ",")
            p, x = self.addr(a[0]), self.par(a[1])
            self.stores = True
            if m.group(2) in ("store_ps", "stream_ps"):
                self.fault = True; self.lines.append(f"  let m ← store{w} m ({p}) {x}")
            else: self.lines.append(f"  let m := {m.group(2)[:-3]} m ({p}) {x}")
            return
        m = re.match(r"^sw\(\s*(\w+)\.i\[\s*(\d+)\],\s*(\w+)\.i\[\s*(\d+)\]\s*\)$", s)
        if m:  # exchange of two words by three exclusive ors
            x, y = (m.group(1), int(m.group(2))), (m.group(3), int(m.group(4)))
            assert x != y
            X, Y = self.lane(*x), self.lane(*y)
            self.lines += [f"  let s := {X}", f"  let {x[0]}_{x[1]} := {Y}", f"  let {y[0]}_{y[1]} := s"]
            self.lanes[x], self.lanes[y] = f"{x[0]}_{x[1]}", f"{y[0]}_{y[1]}"
            return
        l, r = s.split("=", 1); l, r = l.strip(), r.strip()
        w = self.ptrword(l)
        if w is not None:
            self.stores = True
            x = self.par(r); self.lines.append(f"  let m := put m ({w}) {x}"); return
        m = re.match(r"^(\w+)\.[if]\[\s*(\d+)\s*\]$", l)
        if m:
            nm, k = m.group(1), int(m.group(2))
            e = self.expr(r) if not re.match(r"^a\.i\[i\d+\]$", r) else f"(a.i {r[4:-1]})"
            v = f"{nm}_{k}"
            self.lines.append(f"  let {v} := {e}"); self.lanes[(nm, k)] = v
            if all((nm, j) in self.lanes for j in range(4 * self.n)):
                q = [" ".join(self.lanes[(nm, 4 * b + j)] for j in range(4)) for b in range(self.n)]
                self.let(nm, {1: "one", 2: "two", 4: "four"}[self.n] + "".join(f" (quad {x})" for x in q))
                for j in range(4 * self.n): del self.lanes[(nm, j)]
            return
        m = re.match(r"^(\w+)(?:\.v)?$", l)
        assert m, s
        self.let(m.group(1), self.expr(r))

    def lean(self, path, l0, l1):
        for nm in sorted({x for x, _ in self.lanes}):
            q = [" ".join(f"({self.lane(nm, 4 * b + j)})" for j in range(4)) for b in range(self.n)]
            e = {1: "one", 2: "two", 4: "four"}[self.n] + "".join(f" (quad {x})" for x in q)
            self.lines.append(f"  let {nm} := {e}")
        for nm in {x for x, _ in self.lanes}: self.env[nm] = nm
        sig = f"def {self.name} [Zero α]" if self.zero else f"def {self.name}"
        used = "\n".join(self.lines)
        if self.reads or self.stores: sig += " (m : Memory α)"
        if self.nin: sig += f" (v : Fin {self.nin} → Reg {self.n} α)"
        for nm, e in self.ptr.items():
            if nm == e: sig += f" ({nm} : ℕ)"
        if self.nrows: sig += f" (p : Fin {self.nrows//4} → Fin 4 → ℕ)" if self.nrows % 4 == 0 else f" (p : Fin 1 → Fin 4 → ℕ)"
        if self.stores: ty, res = "Memory α", "m"
        else:
            k = len(self.outregs)
            res = "![" + ", ".join(self.env[x] for x in self.outregs) + "]" if k > 1 else self.env[self.outregs[0]]
            ty = f"(Fin {k} → Reg {self.n} α)" if k > 1 else f"Reg {self.n} α"
        out = [f"/-- `{self.name}`, /repo/src/util/{path}:{l0}-{l1}. -/"]
        if self.fault: out.append(f"{sig} : Option ({ty}) := do")
        else: out.append(f"{sig} : {ty} :=")
        out += self.lines
        out.append(f"  return {res}" if self.fault else f"  {res}")
        return "\n".join(out)

def main():
    for path, mod, n in FILES:
        text = strip(open(SRC + path).read())
        out = [f"import Verif.Vector.Instr\n\n/-! Functions of /repo/src/util/{path} that move data; written by `tools/gen_vector.py`. -/",
               f"namespace Verif.Vector.{mod}\n", "variable {α : Type}\n"]
        for ret, name, params, body, l0, l1 in functions(text):
            if name in ("splat", "shuffle"): continue  # templates over constants, not transcribed
            try: out.append(Fn(ret, name, params, body, n).lean(path, l0, l1) + "\n")
            except Exception as e: print("FAILED", path, name, l0, repr(e))
        out.append(f"end Verif.Vector.{mod}\n")
        open(os.path.join(OUT, mod + ".lean"), "w").write("\n".join(out))
main()
