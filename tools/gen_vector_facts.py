#!/usr/bin/env python3
"""Writes lean/Verif/Vector/Facts*.lean: for each transcribed function of the vector classes, that it does what Verif/Vector/Spec.lean says.
The proofs are evaluations of the transcribed functions, case by case; the kernel checks them."""
import re, os
OUT = os.path.join(os.path.dirname(os.path.abspath(__file__)), "..", "lean", "Verif", "Vector")
MODS = ["V4Neon", "V4Portable", "V4Sse", "V4Avx", "V4Avx2", "V8Portable", "V8Avx", "V8Avx2", "V16Portable", "V16Avx512"]
BLOCKS = {"V4": 1, "V8": 2, "V16": 4}

def rows(r, h="h"):
    return [f"({h} {i//4} {i%4})" for i in range(r)]

def facts(mod):
    n = BLOCKS[re.match(r"V\d+", mod).group(0)]
    text = open(os.path.join(OUT, mod + ".lean")).read()
    out = []
    for m in re.finditer(r"^def (\w+)((?: [\[({].*?[\])}])*) : (.*?) :=(.*?)(?=^/--|^end)", text, flags=re.S | re.M):
        name, args, ty, body = m.groups()
        f = f"{mod}.{name}"
        fault = ty.startswith("Option")
        zero = "[Zero α]" in args
        z = " [Zero α]" if zero else ""
        regs = set(re.findall(r"(?:load|store)([124]) m", body))
        assert len(regs) <= 1
        reg = regs.pop() if regs else None
        w = {None: 1, "1": 4, "2": 8, "4": 16}[reg]
        rm = re.search(r"p : Fin (\d) → Fin 4", args)
        r = 4 * int(rm.group(1)) if rm else 0
        vm = re.search(r"v : Fin (\d+) →", args)
        alls = {1: "all1", 2: "all2", 4: "all4"}
        t = f"theorem {name}{z} : "
        if mod == "V4Neon" and "4x8_tr" in name: continue  # see Verif/Vector/Neon.lean
        if name == "transpose":
            out.append(f"{t}Transposes (α := α) (n := {n}) {f} := by\n  intro v\n  cases_rfl")
        elif name == "swap":
            out.append(f"{t}Exchanges (α := α) {f} := fun v => ⟨by cells_rfl, by cells_rfl⟩")
        elif re.match(r"load_\d+x\d+_(tr_p|tr)$", name):
            k = int(re.match(r"load_\d+x(\d+)", name).group(1))
            spec = "LoadsTr" if name.endswith("_tr") else ("LoadsPairs" if k == 8 else "LoadsPairs2")
            fn = f if fault else (f"(fun m p => some ({f} m p))" if k > 1 else f"(fun m p => some (fun _ : Fin 1 => {f} m p))")
            if not fault:
                split = "⟨_, rfl, ?_⟩" if spec != "LoadsPairs2" else "⟨_, rfl, ?_, ?_⟩"
                out.append(f"{t}{spec} (α := α) 1 {fn} := by\n  intro m p\n  refine ⟨fun _ => {split}, fun ⟨q, l, h⟩ => absurd (Nat.mod_one _) h⟩\n"
                           + ("  cases_rfl" if spec != "LoadsPairs2" else "  · cases_rfl\n  · cases_rfl"))
            else:
                oks = "\n      ".join(", ".join(f"load{reg}_ok {h}" for h in rows(r)[i:i + 8]) for i in range(0, r, 8))
                oks = oks.replace(")\n", "),\n")
                fin = "refine ⟨_, rfl, ?_⟩\n    cases_rfl" if spec != "LoadsPairs2" else "refine ⟨_, rfl, ?_, ?_⟩\n    · cases_rfl\n    · cases_rfl"
                out.append(f"{t}{spec} (α := α) {w} {fn} := by\n  intro m p\n  have hb : ∀ q l, p q l % {w} ≠ 0 → {f} m p = none := by\n"
                           f"    refine_rows (skip_bind {f} load{reg}_bad)\n"
                           f"  refine ⟨fun h => ?_, fun ⟨q, l, h⟩ => hb q l h⟩\n  · unfold {f}\n    rw [{oks}]\n    {fin}")
        elif re.match(r"store_\d+x\d+_(tr_p|tr)$", name):
            k = int(re.match(r"store_\d+x(\d+)", name).group(1))
            spec = "StoresTr" if name.endswith("_tr") else ("StoresPairs" if k == 8 else "StoresPairs2")
            fn = f if fault else f"(fun m v p => some ({f} m v p))"
            od = f"(order {n} {k}) mem_order"
            if k == 3 and "storel" in body: od = f"(order3 {n}) mem_order3"
            of = f"storesTr_of {od}" if spec == "StoresTr" else ("storesPairs_of" if k == 8 else "storesPairs2_of")
            if not fault:
                out.append(f"{t}{spec} (α := α) 1 {fn} :=\n  {of} (fun _ _ _ _ => by kernel_rfl) fun _ _ _ _ _ h => absurd (Nat.mod_one _) h")
            else:
                steps = "\n    ".join(f"refine (store{reg}_{'ok' if i + 1 == r else 'bind'} {h}).trans ?_" for i, h in enumerate(rows(r)))
                out.append(f"{t}{spec} (α := α) {w} {fn} := by\n  refine {of} (fun m v p h => ?_) (fun m v p => ?_)\n"
                           f"  · unfold {f}\n    {steps}\n    kernel_rfl\n"
                           f"  · refine_rows (skip_bind {f} store{reg}_bad)")
        elif re.match(r"load_\d+x1$", name):
            if fault:
                out.append(f"{t}Loads (α := α) {w} {f} := by\n  intro m p\n  refine ⟨fun h => ?_, fun h => ?_⟩\n  · unfold {f}\n    rw [load{reg}_ok h]\n"
                           f"    refine ⟨_, rfl, ?_⟩\n    cases_rfl\n  · exact bind_bad (load{reg}_bad h)")
            else:
                out.append(f"{t}Loads (α := α) 1 (fun m p => some ({f} m p)) := by\n  intro m p\n"
                           f"  refine ⟨fun _ => ⟨_, rfl, ?_⟩, fun h => absurd (Nat.mod_one _) h⟩\n  cases_rfl")
        elif re.match(r"(store|stream)_\d+x1$", name):
            if fault:
                out.append(f"{t}Stores (α := α) {w} {f} :=\n  stores_of (fun _ _ _ h => (store{reg}_ok h).trans rfl) fun _ _ _ h => store{reg}_bad h")
            else:
                out.append(f"{t}Stores (α := α) 1 (fun m v p => some ({f} m v p)) :=\n  stores_of (fun _ _ _ _ => by kernel_rfl) fun _ _ _ h => absurd (Nat.mod_one _) h")
        elif re.match(r"clear_\d+x1$", name):
            if fault:
                out.append(f"{t}Clears (α := α) {n} {w} {f} :=\n  clears_of (fun _ _ h => (store{reg}_ok h).trans rfl) fun _ _ h => store{reg}_bad h")
            else:
                out.append(f"{t}Clears (α := α) {n} 1 (fun m p => some ({f} m p)) :=\n  clears_of (fun _ _ _ => by kernel_rfl) fun _ _ h => absurd (Nat.mod_one _) h")
        elif re.match(r"(copy|swap)_\d+x1$", name):
            S, c = ("Copies", "copies") if name.startswith("copy") else ("Swaps", "swaps")
            if fault: out.append(f"{t}{S} (α := α) {n} {w} {f} := {c}_of_{reg} fun _ _ _ => rfl")
            elif "ldq" in body: out.append(f"{t}{S} (α := α) {n} 1 (fun m a b => some ({f} m a b)) := {c}_of_quad fun _ _ _ => rfl")
            else: out.append(f"{t}{S} (α := α) {n} 1 (fun m a b => some ({f} m a b)) := {c}_of_words fun _ _ _ => by kernel_rfl")
        elif name == "load_16x2_bc": pass
        else: raise Exception(name)
    head = (f"import Verif.Vector.{mod}\nimport Verif.Vector.Lemmas\n\n/-! The functions of `Verif/Vector/{mod}.lean` do what they shall; written by "
            f"`tools/gen_vector_facts.py`. -/\nnamespace Verif.Vector.Facts{mod}\n\nvariable {{α : Type}}\n\n")
    open(os.path.join(OUT, "Facts" + mod + ".lean"), "w").write(head + "\n\n".join(out) + f"\n\nend Verif.Vector.Facts{mod}\n")

for mod in MODS: facts(mod)
