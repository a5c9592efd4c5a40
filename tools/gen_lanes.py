#!/usr/bin/env python3
"""Transcribes the operators and functions that compute in the vector classes of /repo/src/util (v4_sse.h ... v16_avx512.h) to Lean.
Writes lean/Verif/Vector/L<Name>.lean. Macros are expanded; anything it does not understand stops it."""
import re, os, sys
sys.path.insert(0, os.path.dirname(os.path.abspath(__file__)))
SRC = "/repo/src/util/"
OUT = os.path.join(os.path.dirname(os.path.abspath(__file__)), "..", "lean", "Verif", "Vector")
FILES = [("v4/v4_portable.h", "V4Portable", 1), ("v4/v4_sse.h", "V4Sse", 1), ("v4/v4_avx.h", "V4Avx", 1), ("v4/v4_avx2.h", "V4Avx2", 1), ("v4/v4_neon.h", "V4Neon", 1),
         ("v8/v8_portable.h", "V8Portable", 2), ("v8/v8_avx.h", "V8Avx", 2), ("v8/v8_avx2.h", "V8Avx2", 2),
         ("v16/v16_portable.h", "V16Portable", 4), ("v16/v16_avx512.h", "V16Avx512", 4)]
MACROS = ("ASSIGN", "PREFIX_UNARY", "BINARY", "LOGICAL", "CMATH_FR1", "CMATH_FR2")
BIN = {"+": "add", "-": "sub", "*": "mul", "/": "div", "^": "xor", "&": "and", "|": "or", "<": "lt", ">": "gt", "==": "eq", "!=": "ne", "<=": "le", ">=": "ge",
       "&&": "land", "||": "lor"}
UN = {"-": "neg", "~": "not", "!": "lnot"}
NAMES = "czero notczero merge any all abs fabs sqrt copysign rsqrt rcp fma fms fnms clear_bits set_bits toggle_bits trilinear".split()

def strip(text):
    text = re.sub(r"//[^\n]*", lambda m: "\\" if m.group(0).rstrip().endswith("\\") else "", text)
    text = re.sub(r"/\*.*?\*/", lambda m: "\n" * m.group(0).count("\n"), text, flags=re.S)
    out, skip = [], 0
    for line in text.split("\n"):
        if skip:
            if re.match(r"\s*#\s*if", line): skip += 1
            if re.match(r"\s*#\s*endif", line): skip -= 1
            out.append("")
        elif re.match(r"\s*#\s*if\s+0", line): skip = 1; out.append("")
        else: out.append(line)
    return out

def split(s, sep):
    out, depth, cur = [], 0, ""
    for c in s:
        if c in "([{": depth += 1
        if c in ")]}": depth -= 1
        if c == sep and depth == 0: out.append(cur.strip()); cur = ""
        else: cur += c
    if cur.strip(): out.append(cur.strip())
    return out

def expand(lines):
    """Expands the macros above; gives pieces of text with their first line."""
    macros, out, i = {}, [], 0
    while i < len(lines):
        l = lines[i]
        m = re.match(r"\s*#\s*define\s+(\w+)\(([^)]*)\)(.*)", l)
        if m and m.group(1) in MACROS:
            body, first = m.group(3), i + 1
            while lines[i].rstrip().endswith("\\"): body = body.rstrip().rstrip("\\") + "\n"; i += 1; body += lines[i]
            macros[m.group(1)] = ([x.strip() for x in m.group(2).split(",")], body, first, i + 1)
        elif re.match(r"\s*(%s)\(" % "|".join(MACROS), l):
            for mm in re.finditer(r"(%s)\(([^)]*)\)" % "|".join(MACROS), l):
                par, body, f0, f1 = macros[mm.group(1)]
                args = [x.strip() for x in mm.group(2).split(",")]
                for p, a in zip(par, args): body = re.sub(r"\b%s\b" % p, lambda _: a, body)
                if "friend" not in body: out.append((body, f0, f1, i + 1))
        elif re.match(r"\s*#", l):
            while l.rstrip().endswith("\\"): i += 1; l = lines[i]
        else: out.append((l, i + 1, None, None))
        i += 1
    return out

def functions(path):
    text, where = "", []
    for t, f0, f1, use in expand(strip(open(SRC + path).read())):
        for k, l in enumerate(t.split("\n")):
            where.append((f0, f1, use) if f1 else (f0 + k, None, None)); text += l + "\n"
    for m in re.finditer(r"inline\s+(int|void|v\d+(?:int|float)?)\s*(&?)\s*(operator\s*[^\s(]+(?:\s*=)?|\w+)\s*\(", text):
        if re.search(r"friend\s*$", text[:m.start()]): continue
        i, depth = m.end(), 1
        while depth: depth += {"(": 1, ")": -1}.get(text[i], 0); i += 1
        params = text[m.end():i - 1]; j = i
        while text[j] in " \t\n": j += 1
        if text[j] != "{": continue
        k, depth = j + 1, 1
        while depth: depth += {"{": 1, "}": -1}.get(text[k], 0); k += 1
        a, b = where[text.count("\n", 0, m.start())], where[text.count("\n", 0, k - 1)]
        cite = f"{a[0]}-{a[1]},{a[2]}" if a[1] else f"{a[0]}-{b[0]}"
        yield m.group(1), m.group(2), re.sub(r"\s+", "", m.group(3)), params, text[j + 1:k - 1], cite

TOK = re.compile(r"\s*(0x[0-9a-fA-F]+|\d+\.?\d*f?|\w+\.(?:vsi|vui|[vif])\s*(?:\[\s*\d+\s*\])?|(?:i|f|p)\[\s*\d+\s*\]|::\w+|\w+|\+\+|--|&&|\|\||<=|>=|==|!=|[-+*/&|^~!<>?:(),])")
PREC = [["||"], ["&&"], ["|"], ["^"], ["&"], ["==", "!="], ["<", ">", "<=", ">="], ["+", "-"], ["*", "/"]]
CMP = {"_CMP_LT_OS": "flt", "_CMP_GT_OS": "fgt", "_CMP_EQ_OS": "feq", "_CMP_NEQ_OS": "fneO", "_CMP_LE_OS": "fle", "_CMP_GE_OS": "fge"}

class Fn:
    def __init__(self, ret, ref, name, params, body, n, path):
        self.n, self.lanes, self.env, self.lines, self.bits, self.F, self.mem = n, {}, {}, [], False, False, False
        self.scal, self.bound, self.fault = {}, [], False
        self.member = False
        self.args, self.out = [], None
        post = False
        for p in split(params, ","):
            if p == "int": post = True; continue
            nm = re.search(r"(\w+)$", p).group(1)
            if "*" in p: self.ptr = nm; continue
            self.args.append(nm); self.env[nm] = nm
        fl = "float" in params or "float" in ret
        o = name[8:] if name.startswith("operator") else None
        self.name = None
        if o is None:
            if name in NAMES: self.name = name
            m = re.match(r"^(increment|decrement|scale)_(4|8|16)x1$", name)
            if m: self.name = m.group(1)
        else:
            k = "f" if fl else "i"
            if ref:
                if o.endswith("=") and o[:-1] in BIN and o not in ("==", "<=", ">=", "!="): self.name = k + BIN[o[:-1]] + "_to"; self.member = True
            elif o in ("++", "--"):
                if fl: self.name = ("post" if post else "pre") + ("inc" if o == "++" else "dec")
            elif len(self.args) == 1 and o in UN: self.name = k + UN[o]
            elif len(self.args) == 2 and o in BIN: self.name = k + BIN[o]
        if self.name in ("idiv", "idiv_to"): self.name = None  # undefined for some operands; one lane at a time in all versions
        if self.name is None: return
        if self.member:
            self.args = ["a"] + self.args; self.env["a"] = self.env["v"] = self.env["vsi"] = "a"
        if self.name == "trilinear": self.args = ["wl"]
        for st in split(body, ";"): self.stmt(re.sub(r"\s+", " ", st))

    # registers --------------------------------------------------------------------------------------------------
    def reg(self, s):
        s = s.strip()
        self.pack(re.match(r"^(\w+)", s).group(1))
        m = re.match(r"^(\w+)\.(v|vsi|vui)$", s)
        if m: return self.env[m.group(1)]
        if re.match(r"^\w+$", s): return self.env[s]
        m = re.match(r"^(_mm\d*_\w+|v\w+q\w*_[fsu]\d+)\s*\((.*)\)$", s)
        a = split(m.group(2), ","); f = m.group(1)
        w = self.n
        g = re.sub(r"^_mm\d*_", "", f)
        E = lambda x: self.par(self.reg(x))
        if g in ("set1_ps", "vdupq_n_f32"):
            e, t = self.cexpr(a[0], "f"); return f"(set1 {self.par(e)} : Reg {w} _)"
        if g == "setr_ps": return "one (quad " + " ".join(self.par(self.cexpr(x, "f")[0]) for x in a) + ")"
        if g == "setzero_ps": return f"(set1 ZERO : Reg {w} _)"
        if g == "shuffle_ps":
            p = re.match(r"^PERM\((\d),(\d),(\d),(\d)\)$", a[2])
            return f"shuffle {E(a[0])} {E(a[1])} ({p[1]} + {p[2]} * 4 + {p[3]} * 16 + {p[4]} * 64)"
        if g == "load_ps": self.fault = self.mem = True; return f"(← load{w} m {a[0]})"
        if g == "vld1q_f32": self.mem = True; return f"ldq m {a[0]}"
        ar = {"add_ps": "F.add", "sub_ps": "F.sub", "mul_ps": "F.mul", "div_ps": "F.div", "vaddq_f32": "F.add", "vsubq_f32": "F.sub", "vmulq_f32": "F.mul", "vdivq_f32": "F.div"}
        if g in ar: self.F = True; return f"lift2 {ar[g]} {E(a[0])} {E(a[1])}"
        u = {"sqrt_ps": "F.sqrt", "rsqrt_ps": "F.rsqrtE", "rcp_ps": "F.rcpE", "rsqrt14_ps": "F.rsqrtE", "rcp14_ps": "F.rcpE", "vrsqrteq_f32": "F.rsqrtE", "vrecpeq_f32": "F.rcpE"}
        if g in u: self.F = True; return f"lift1 {u[g]} {E(a[0])}"
        t = {"fmadd_ps": "F.fmadd", "fmsub_ps": "F.fmsub", "fnmadd_ps": "F.fnmadd"}
        if g in t: self.F = True; return f"lift3 {t[g]} {E(a[0])} {E(a[1])} {E(a[2])}"
        b = {"and_ps": "and", "or_ps": "or", "xor_ps": "xor", "andnot_ps": "andnot", "vandq_s32": "and", "vorrq_s32": "or", "veorq_s32": "xor", "vbicq_s32": "bic",
             "cmplt_ps": "cmp flt", "cmpgt_ps": "cmp fgt", "cmpeq_ps": "cmp feq", "cmpneq_ps": "cmp fne", "cmple_ps": "cmp fle", "cmpge_ps": "cmp fge",
             "vcltq_f32": "cmp flt", "vcgtq_f32": "cmp fgt", "vceqq_f32": "cmp feq", "vcleq_f32": "cmp fle", "vcgeq_f32": "cmp fge"}
        if g in b and " " in b[g]: self.bits = True; return f"lift2 (Word.cmp Word.{b[g][4:]}) {E(a[0])} {E(a[1])}"
        if g in b: self.bits = True; return f"lift2 Word.{b[g]} {E(a[0])} {E(a[1])}"
        if g == "vmvnq_u32": self.bits = True; return f"lift1 (~~~ ·) {E(a[0])}"
        if g == "cmp_ps": self.bits = True; return f"lift2 (Word.cmp Word.{CMP[a[2]]}) {E(a[0])} {E(a[1])}"
        raise Exception("reg " + s)

    def pack(self, nm):
        """Lanes that were set one by one become the register."""
        ks = [k for (x, k) in self.lanes if x == nm]
        if not ks: return
        q = [" ".join(self.par(self.lane(nm, 4 * b + j)) for j in range(4)) for b in range(self.n)]
        self.lines.append(f"  let {nm} := " + {1: "one", 2: "two", 4: "four"}[self.n] + "".join(f" (quad {x})" for x in q))
        self.env[nm] = nm
        for k in ks: del self.lanes[(nm, k)]

    def par(self, e):
        depth, closed = 0, 0
        for i, c in enumerate(e):
            depth += {"(": 1, ")": -1}.get(c, 0)
            if depth == 0: closed = i; break
        return e if re.match(r"^[\w.]+$", e) or (e.startswith("(") and closed == len(e) - 1) else f"({e})"

    def lane(self, nm, k):
        return self.lanes.get((nm, k)) or f"{self.env[nm]} {k//4} {k%4}"

    # scalars ----------------------------------------------------------------------------------------------------
    def cexpr(self, s, want=None):
        self.toks, i = [], 0
        while i < len(s):
            m = TOK.match(s, i)
            if not m: raise Exception(f"token {s[i:]!r} in {s!r}")
            self.toks.append(m.group(1)); i = m.end()
            while i < len(s) and s[i] == " ": i += 1
        self.k = 0
        e, t = self.tern()
        if self.k != len(self.toks): raise Exception("rest " + s)
        if want and t != want:
            e = self.conv(e, t, want)
        return e, want or t

    def conv(self, e, t, want):
        if t == want: return e
        if t == "n":
            if want == "f":
                if e == "-0.0": self.bits = True; return "Word.sign"
                return {"0": "ZERO", "1": "F.one", "0.0": "ZERO", "1.0": "F.one", "0.5": "F.half"}[e]
            if want == "i": self.bits = True; return f"({e} : Word)"
        if t == "b" and want == "i": self.bits = True; return f"Word.bit {self.par(e)}"
        if want == "b":
            self.bits = True
            if t == "i": return f"({e} != 0)"
            if t == "f": return f"Word.fne {self.par(e)} 0"
        raise Exception(f"conv {e} {t} {want}")

    def peek(self): return self.toks[self.k] if self.k < len(self.toks) else None
    def next(self): self.k += 1; return self.toks[self.k - 1]
    def tern(self):
        c = self.binary(0)
        if self.peek() != "?": return c
        self.next(); x = self.tern(); assert self.next() == ":"; y = self.tern()
        x, y = self.conv(*x, "i"), self.conv(*y, "i")
        return f"if {self.conv(*c, 'b')} then {x} else {y}", "i"

    def binary(self, p):
        if p == len(PREC): return self.unary()
        x = self.binary(p + 1)
        while self.peek() in PREC[p]:
            o = self.next(); y = self.binary(p + 1); x = self.op(o, x, y)
        return x

    def op(self, o, x, y):
        if o in ("&&", "||"): return f"{self.par(self.conv(*x, 'b'))} {o} {self.par(self.conv(*y, 'b'))}", "b"
        t = "f" if "f" in (x[1], y[1]) else "i"
        a, b = self.par(self.conv(*x, t)), self.par(self.conv(*y, t))
        if o in ("<", ">", "<=", ">=", "==", "!="):
            self.bits = True
            return f"Word.{t}{BIN[o]} {a} {b}", "b"
        if t == "f": self.F = True; return f"F.{BIN[o]} {a} {b}", "f"
        self.bits = True
        return f"{a} {dict(zip('+-*^&|', ['+', '-', '*', '^^^', '&&&', '|||']))[o]} {b}", "i"

    def unary(self):
        t = self.peek()
        if t in ("-", "~", "!", "+"):
            self.next()
            if t == "-" and re.match(r"^[\d.]+f?$", self.peek() or ""):
                e = self.next().rstrip("f"); e = e + "0" if e.endswith(".") else e
                return "-" + e, "n"
            x, ty = self.unary()
            if t == "+": return x, ty
            if t == "!": return f"!{self.par(self.conv(x, ty, 'b'))}", "b"
            if t == "~": self.bits = True; return f"~~~{self.par(x)}", "i"
            if ty == "f": self.bits = True; return f"Word.fneg {self.par(x)}", "f"
            self.bits = True; return f"-{self.par(self.conv(x, ty, 'i'))}", "i"
        if t in ("++", "--"):
            self.next(); nm = self.next(); m = re.match(r"^(\w+)\.f\s*\[\s*(\d+)\s*\]$", nm); self.F = True
            k = (m.group(1), int(m.group(2)))
            self.lines.append(f"  let {k[0]}_{k[1]} := F.{'add' if t == '++' else 'sub'} ({self.lane(*k)}) F.one"); self.lanes[k] = f"{k[0]}_{k[1]}"
            return self.lane(*k), "f"
        if t == "(":
            self.next(); x = self.tern(); assert self.next() == ")"; return x
        self.next()
        if re.match(r"^[\d.]+f?$", t):
            e = t.rstrip("f"); return (e + "0" if e.endswith(".") else e), "n"
        if t.startswith("::"):
            assert self.next() == "("; x = self.conv(*self.tern(), "f"); assert self.next() == ")"
            if t == "::sqrt": self.F = True; return f"F.sqrt {self.par(x)}", "f"
            if t == "::fabs": self.bits = True; return f"Word.fabs {self.par(x)}", "f"
            raise Exception("call " + t)
        m = re.match(r"^(\w+)\.([if])\s*\[\s*(\d+)\s*\]$", t)
        if m:
            k = (m.group(1), int(m.group(3)))
            if self.peek() in ("++", "--"):
                o = self.next(); self.F = True; old = f"{k[0]}_{k[1]}_old"
                self.lines.append(f"  let {old} := {self.lane(*k)}")
                self.lines.append(f"  let {k[0]}_{k[1]} := F.{'add' if o == '++' else 'sub'} {old} F.one"); self.lanes[k] = f"{k[0]}_{k[1]}"
                return old, "f"
            return self.lane(*k), m.group(2)
        m = re.match(r"^([if])\[\s*(\d+)\s*\]$", t)
        if m: return self.lane("a", int(m.group(2))), m.group(1)
        m = re.match(r"^p\[\s*(\d+)\s*\]$", t)
        if m: return f"m (p + {m.group(1)})", "f"
        m = re.match(r"^(\w+)\.([if])$", t)
        if m: return m.group(1), m.group(2)
        if t in self.scal: return t, self.scal[t]
        raise Exception("atom " + t)

    # statements -------------------------------------------------------------------------------------------------
    def stmt(self, s):
        s = re.sub(r"^ALWAYS_VECTORIZE ", "", s.strip())
        if not s or s.startswith("union"): return
        m = re.match(r"^for\( int j = 0; j < (\d+); j\+\+ \) (.*)$", s)
        if m:
            b = m.group(2).strip()
            if b.startswith("{"): b = b[1:b.rindex("}")] + ";" + b[b.rindex("}") + 1:]
            stmts = split(b, ";")
            tail = [x for x in stmts if x.startswith("return")]; stmts = [x for x in stmts if x not in tail]
            for j in range(int(m.group(1))):
                for t in stmts: self.stmt(t.replace("[j]", f"[{j}]"))
            for t in tail: self.stmt(t)
            return
        m = re.match(r"^(__m\d+|float32x4_t|v\d+(?:int|float)?|float) (.*)$", s)
        if m:
            for d in split(m.group(2), ","):
                nm = d.split("=")[0].strip()
                if m.group(1) == "float": self.scal[nm] = "f"
                if "=" in d:
                    e = d.split("=", 1)[1]
                    if m.group(1) == "float": self.lines.append(f"  let {nm} := {self.cexpr(e.strip(), 'f')[0]}")
                    else: self.lines.append(f"  let {nm} := {self.reg(e)}"); self.env[nm] = nm
            return
        m = re.match(r"^if ?\((.*?)\) (t = .*)$", s)
        if m:
            c = self.conv(*self.cexpr(m.group(1).strip()), "b"); e = self.cexpr(m.group(2)[4:], "f")[0]
            self.lines.append(f"  let t := if {c} then {e} else t"); return
        m = re.match(r"^return (.*)$", s)
        if m:
            r = m.group(1).strip()
            if r == "*this": self.out = "a"
            elif re.match(r"^\w+$", r): self.out = r
            else: self.lines.append("  " + self.conv(*self.cexpr(r), "b")); self.out = ""
            return
        m = re.match(r"^(_mm\d*_store_ps|vst1q_f32)\s*\((.*)\)$", s)
        if m:
            a = split(m.group(2), ","); x = self.par(self.reg(a[1])); self.mem = True
            if m.group(1) == "vst1q_f32": self.lines.append(f"  let m := stq m {a[0]} {x}")
            else: self.lines.append(f"  let m ← store{self.n} m {a[0]} {x}"); self.fault = True
            return
        m = re.match(r"^p\[\s*(\d+)\s*\] ([-+*])= (.*)$", s)
        if m:
            self.mem = self.F = True
            e = self.cexpr(m.group(3), "f")[0]
            self.lines.append(f"  let m := put m (p + {m.group(1)}) (F.{BIN[m.group(2)]} (m (p + {m.group(1)})) {self.par(e)})"); return
        m = re.match(r"^([if])\[\s*(\d+)\s*\] ([-+*/^&|])= (.*)$", s)
        if m:
            k = ("a", int(m.group(2)))
            e = self.op(m.group(3), (self.lane(*k), m.group(1)), self.cexpr(m.group(4)))[0]
            self.lines.append(f"  let a_{k[1]} := {e}"); self.lanes[k] = f"a_{k[1]}"; return
        l, r = s.split("=", 1); l, r = l.strip(), r.strip()
        m = re.match(r"^(\w+)\.([if])\s*\[\s*(\d+)\s*\]$", l)
        if m:
            nm, k = m.group(1), int(m.group(3)); e = self.cexpr(r, m.group(2))[0]
            self.lines.append(f"  let {nm}_{k} := {e}"); self.lanes[(nm, k)] = f"{nm}_{k}"; self.env.setdefault(nm, nm); return
        if re.match(r"^\w+\.i$", l): self.lines.append(f"  let {l[:-2]} := {self.cexpr(r, 'i')[0]}"); return
        if l in self.scal: self.lines.append(f"  let {l} := {self.cexpr(r, 'f')[0]}"); return
        m = re.match(r"^(\w+)(?:\.(?:v|vsi|vui))?$", l); assert m, s
        nm = "a" if (self.member and m.group(1) in ("v", "vsi")) else m.group(1)
        self.lines.append(f"  let {nm} := {self.reg(r)}"); self.env[nm] = nm

    def lean(self, path, cite):
        for nm in sorted({x for x, _ in self.lanes}): self.pack(nm)
        gen = not self.bits
        self.lines = [l.replace("ZERO", "F.zero" if gen else "(0 : Word)") for l in self.lines]
        self.F = "F." in "\n".join(self.lines)
        W = "W" if gen else "Word"
        F = f" (F : Arith {W})" if self.F else ""
        regs = " ".join(self.args)
        M = f" (m : Memory {W}) (p : ℕ)" if self.mem else ""
        sig = f"def {self.name}{F}{M} ({regs} : Reg {self.n} {W})"
        if self.mem: ty, res = f"Memory {W}", "m"
        elif self.name in ("any", "all"): ty, res = "Bool", None
        elif self.name == "trilinear": ty, res = f"Reg 1 {W} × Reg 1 {W}", "(wl, wh)"
        elif self.name.startswith("p") : ty, res = f"Reg {self.n} {W} × Reg {self.n} {W}", "(a, b)"
        else: ty, res = f"Reg {self.n} {W}", self.env[self.out]
        out = [f"/-- `{self.cname}`, /repo/src/util/{path}:{cite}. -/"]
        out.append(f"{sig} : Option ({ty}) := do" if self.fault else f"{sig} : {ty} :=")
        out += self.lines
        if res: out.append(f"  return {res}" if self.fault else f"  {res}")
        self.gen = gen
        return "\n".join(out)

def main():
    info = {}
    for path, mod, n in FILES:
        out = [f"import Verif.Vector.Lane\n\n/-! Operators and functions of /repo/src/util/{path} that compute; written by `tools/gen_lanes.py`. -/",
               f"namespace Verif.Vector.{mod}\n", "variable {W : Type}\n"]
        info[mod] = {}
        for ret, ref, name, params, body, cite in functions(path):
            try:
                f = Fn(ret, ref, name, params, body, n, path)
                if f.name is None: continue
                f.cname = name.replace("operator", "operator ")
                out.append(f.lean(path, cite) + "\n")
                assert f.name not in info[mod], f.name
                info[mod][f.name] = (f.gen, f.F, f.fault)
            except Exception as e: print("FAILED", path, name, cite, repr(e))
        out.append(f"end Verif.Vector.{mod}\n")
        open(os.path.join(OUT, "L" + mod + ".lean"), "w").write("\n".join(out))
    return info
if __name__ == "__main__":
    info = main()
    names = []
    for mod in info:
        for x in info[mod]:
            if x not in names: names.append(x)
    for x in names: print(x, " ".join(("-" if x not in info[mod] else ("g" if info[mod][x][0] else "b") + ("F" if info[mod][x][1] else "") + ("?" if info[mod][x][2] else "")) for mod in info))

# ---- facts: LOps.lean -------------------------------------------------------------------------------------------------
def facts(info):
    out = ["import Verif.Vector.LaneLemmas"] + [f"import Verif.Vector.L{mod}" for mod in info]
    out += ["\n/-! The operators of each version together and what they do; written by `tools/gen_lanes.py`. -/", "namespace Verif.Vector\n"]
    F2 = "iadd isub imul ixor iand ior".split()
    OP = dict(zip(F2, ["(· + ·)", "(· - ·)", "(· * ·)", "(· ^^^ ·)", "(· &&& ·)", "(· ||| ·)"]))
    fields = "iadd isub imul ixor iand ior iadd_to isub_to imul_to ixor_to iand_to ior_to ineg inot ilnot ilt igt ieq ine ile ige iland ilor abs czero notczero merge any all " \
             "fadd fsub fmul fdiv fadd_to fsub_to fmul_to fdiv_to preinc predec postinc postdec fneg flnot flt fgt feq fne fle fge fland flor fabs sqrt copysign clear_bits set_bits toggle_bits"
    for (path, mod, n) in FILES:
        I = info[mod]
        text = open(os.path.join(OUT, "L" + mod + ".lean")).read()
        def body(x):
            i = re.search(rf"def {x} .*", text).start(); return text[i:text.find("\n\n", i)]
        lift = lambda x: "lift" in body(x)
        out.append(f"/-- The operators and functions of /repo/src/util/{path}. -/")
        out.append(f"def {mod}.ops (F : Arith Word) : Ops {n} where")
        for x in fields.split():
            F = " F" if I[x][1] else ""
            arity = 1
            out.append(f"  {x} := {mod}.{x}{F}")
        out.append("")
        pr = {}
        R = "by cases_rfl"
        I2 = lambda t: f"lane2_of (by intro a b; cases_rfl) {t}"
        I1 = lambda t: f"lane1_of (by intro a; cases_rfl) {t}"
        for x in F2: pr[x] = f"by intro a b; cases_rfl"
        for x in F2: pr[x + "_to"] = "to_of (by intro a b; cases_rfl)"
        pr["ineg"] = "by intro a; cases_rfl"
        pr["inot"] = I1("xor_ones") if lift("inot") else "by intro a; cases_rfl"
        pr["ilnot"] = I1("lnot_mask")
        for x in "ilt igt ieq ine ile ige iland ilor".split(): pr[x] = I2(x + "_mask")
        pr["abs"] = "abs_of (by intro a; cases_rfl)"
        pr["czero"] = "czero_of " + ("andnot_bits" if lift("czero") else "and_not_bits") + " (by intro a b; cases_rfl)"
        pr["notczero"] = "bits2_of " + ("and_bits" if lift("notczero") else "and_bits'") + " (by intro a b; cases_rfl)"
        pr["merge"] = "bits3_of " + ("merge_bits" if lift("merge") else "merge_bits'") + " (by intro a b c; cases_rfl)"
        pr["any"] = f"any{4*n}"; pr["all"] = f"every{4*n}"
        for x in "fadd fsub fmul fdiv".split(): pr[x] = "by intro a b; cases_rfl"; pr[x + "_to"] = "to_of (by intro a b; cases_rfl)"
        for x, o in zip("preinc predec postinc postdec".split(), "add sub add sub".split()):
            g = f"(fun x => F.{o} x F.one)"
            pr[x] = f"pair_of (g := {g}) (g' := {g if 'pre' in x else 'id'}) (by intro a; cases_rfl) (by intro a; cases_rfl)"
        for x in "flt feq fle".split(): pr[x] = I2("(" + ("cmp_mask" if lift(x) else "neg_bit'") + f" Word.{x})")
        for x in "fgt fge".split(): pr[x] = I2(("cmp_" if lift(x) else "bit_") + x[1:])
        pr["fabs"] = "bits1_of " + ("fabs_bits'" if lift("fabs") else "fabs_bits") + " (by intro a; cases_rfl)"
        pr["sqrt"] = "by intro a; cases_rfl"
        pr["set_bits"] = "bits2_of or_bits (by intro a b; cases_rfl)"
        pr["toggle_bits"] = "bits2_of xor_bits (by intro a b; cases_rfl)"
        out.append(f"theorem {mod}.right (F : Arith Word) : ({mod}.ops F).Right F where")
        for x in fields.split():
            if x in pr: out.append(f"  {x} := {pr[x]}")
        out.append("")
        # the others
        neon, avx8 = mod == "V4Neon", mod in ("V8Avx", "V8Avx2")
        if not avx8:
            out.append(f"theorem {mod}.notEqual (F : Arith Word) : ({mod}.ops F).NotEqual where")
            if neon: a, b, c = "I2n not_cmp_mask", "I2n nland_mask", "I2n nlor_mask"
            elif lift("fne"): a, b, c = "I2n cmp_mask Word.fne", "I2n land_mask", "I2n lor_mask"
            else: a, b, c = "I2n neg_bit' Word.fne", "I2n fland_mask", "I2n flor_mask"
            for x, e in zip(("fne", "fland", "flor"), (a, b, c)): out.append(f"  {x} := {I2(e[4:] if ' ' not in e[4:] else '(' + e[4:] + ')')}")
        else:
            out.append(f"theorem {mod}.ordered (F : Arith Word) : Lane2 ({mod}.ops F).fne (fun a b => mask (Word.fneO a b)) ∧ Lane2 ({mod}.ops F).fland (fun a b => mask (Word.fneO a 0 && Word.fneO b 0)) ∧\n    Lane2 ({mod}.ops F).flor (fun a b => mask (Word.fneO a 0 || Word.fneO b 0)) :=")
            out.append(f"  ⟨{I2('(cmp_mask Word.fneO)')}, {I2('landO_mask')}, {I2('lorO_mask')}⟩")
        out.append("")
        if lift("flnot"): out.append(f"theorem {mod}.not (F : Arith Word) : ({mod}.ops F).Not := {I1('zero_mask')}\n")
        else: out.append(f"theorem {mod}.notBits (F : Arith Word) : Lane1 ({mod}.ops F).flnot (fun a => mask (a = 0)) := {I1('ite_mask')}\n")
        if lift("fneg"): out.append(f"theorem {mod}.minus (F : Arith Word) : Lane1 ({mod}.ops F).fneg (F.sub F.zero) := by intro a; cases_rfl\n")
        else: out.append(f"theorem {mod}.opposite (F : Arith Word) : ({mod}.ops F).Opposite := by intro a; cases_rfl\n")
        if lift("copysign"): out.append(f"theorem {mod}.copySign (F : Arith Word) : ({mod}.ops F).CopySign := copysign_of (by intro a b; cases_rfl)\n")
        else: out.append(f"theorem {mod}.copyLess (F : Arith Word) : Lane2 ({mod}.ops F).copysign copyLess := by intro a b; cases_rfl\n")
        if not neon: out.append(f"theorem {mod}.clear (F : Arith Word) : ({mod}.ops F).Clear := clear_of (by intro a b; cases_rfl)\n")
        for x, op in (("increment", "add"), ("decrement", "sub"), ("scale", "mul")):
            if I[x][2]: w, e, t = 4 * n, f"{mod}.{x} F", f"updates_of_load{n} fun _ _ _ => rfl"
            elif neon: w, e, t = 1, f"fun m p a => some ({mod}.{x} F m p a)", "updates_of_ldq fun _ _ _ => rfl"
            else: w, e, t = 1, f"fun m p a => some ({mod}.{x} F m p a)", "updates_of_words (fun _ _ _ => by kernel_rfl)"
            out.append(f"theorem {mod}.{x}s {{W : Type}} (F : Arith W) : Updates {w} F.{op} ({e}) := {t}\n")
        X = "(exact K sqrt rs rc)"
        out.append(f"theorem {mod}.fused {{K : Type}} [Field K] (sqrt rs rc : K → K) : FusedRight ({mod}.fma {X}) ({mod}.fms {X}) ({mod}.fnms {X}) :=")
        out.append("  ⟨by intro a b c; cases_rfl, by intro a b c; cases_rfl, by intro a b c; cases_rfl⟩\n")
        if "Portable" in mod:
            out.append(f"theorem {mod}.inverse {{W : Type}} (F : Arith W) : Lane1 ({mod}.rsqrt F) (fun a => F.sqrt (F.div F.one a)) ∧ Lane1 ({mod}.rcp F) (F.div F.one) :=\n  ⟨by intro a; cases_rfl, by intro a; cases_rfl⟩\n")
        else:
            out.append(f"theorem {mod}.newtonRsqrt {{K : Type}} [Field K] [CharZero K] (sqrt rs rc : K → K) : RefinesRsqrt rs ({mod}.rsqrt {X}) :=\n  refinesRsqrt_of{chr(39) if 'fmadd' in body('rsqrt') else ''} (by intro F a; cases_rfl)\n")
            out.append(f"theorem {mod}.newtonRcp {{K : Type}} [Field K] (sqrt rs rc : K → K) : RefinesRcp rc ({mod}.rcp {X}) := refinesRcp_of (by intro a; cases_rfl)\n")
    out.append("end Verif.Vector\n")
    open(os.path.join(OUT, "LOps.lean"), "w").write("\n".join(out))
if __name__ == "__main__": facts(info)
