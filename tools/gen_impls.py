#!/usr/bin/env python3
"""Extract every implementation of a method of a vector trait, with its conditions of compilation.

Reads src/arch/{x86,unknown} (default below /repo) as text and writes
lean/Verif/Intrin/ImplTables.lean.
"""
import re, sys, os, glob

REPO = sys.argv[1] if len(sys.argv) > 1 else "/repo"
OUT = os.path.join(os.path.dirname(os.path.abspath(__file__)), "..", "lean", "Verif", "Intrin", "ImplTables.lean")
VEC = re.compile(r"([uif])(8|16|32|64)x(\d+)")

def blank(t, a, b):
    return t[:a] + re.sub(r"[^\n]", " ", t[a:b]) + t[b:]

def close(t, i):
    """The index behind the bracket which closes the one at `i`."""
    d = 0
    while True:
        c = t[i]
        if c == '"':
            i = t.index('"', i + 1)
        elif c in "([{":
            d += 1
        elif c in ")]}":
            d -= 1
            if d == 0:
                return i + 1
        i += 1

def items(t, off=0):
    """Items of a file or of the body of an impl: (attributes, text of the head, body, offset)."""
    out, i, attrs = [], 0, []
    while i < len(t):
        m = re.compile(r"\s+").match(t, i)
        if m:
            i = m.end(); continue
        if t[i] == '#':
            j = t.index('[', i); e = close(t, j)
            attrs.append(re.sub(r"\s+", "", t[j + 1:e - 1])); i = e; continue
            # the head: up to the body or the semicolon
        j = i
        while t[j] not in ";{":
            if t[j] in "([":
                # arguments of a macro with parentheses end the item
                if re.fullmatch(r"\w+\s*!\s*", t[i:j]):
                    break
                j = close(t, j)
            else:
                j += 1
        if t[j] == ";":
            out.append((attrs, t[i:j], "", off + i)); i = j + 1
        else:
            e = close(t, j)
            out.append((attrs, t[i:j].strip(), t[j + 1:e - 1], off + i, off + j + 1))
            i = e
            m = re.compile(r"\s*;").match(t, i)
            if m: i = m.end()
        attrs = []
    return out

def conds(attrs):
    out = []
    for a in attrs:
        if m := re.fullmatch(r'cfg\(target_feature="([^"]*)"\)', a): out.append((m[1], True))
        elif m := re.fullmatch(r'cfg\(not\(target_feature="([^"]*)"\)\)', a): out.append((m[1], False))
        elif re.match(r'inline|allow|derive|doc|macro', a): pass
        elif a == 'cfg(test)': out.append(("test", True))
        else: raise Exception(a)
    return out

def vecs(s):
    s = re.sub(r'"[^"]*"', "", s)
    return [m[0] for m in VEC.finditer(s) if re.match(r"[uif]\d+x\d+$", m[0])]

def macro_fns(f, name):
    """The methods which an `impl_…!` macro writes out."""
    t = open(f"{REPO}/src/{f}").read()
    i = t.index("macro_rules! " + name)
    b = t[i:close(t, t.index("{", i))]
    k = re.search(r"impl \w+ for \$(vec|t)\b", b).start()
    fns = []
    for m in re.finditer(r"\bfn (\w+)", b[k:]):
        if m[1] not in fns: fns.append(m[1])
    return fns

def traits():
    """Traits, their methods without a default and their supertraits."""
    out, sup = {}, {}
    for f in sorted(glob.glob(f"{REPO}/src/intrin/*.rs")) + [f"{REPO}/src/vecs.rs", f"{REPO}/src/vec_patterns.rs"]:
        t = re.sub(r"//.*", "", open(f).read())
        for m in re.finditer(r"pub trait (\w+)([^{]*)\{", t):
            sup[m[1]] = re.findall(r"\w+", m[2].split(":")[1]) if ":" in m[2] and "where" not in m[2] else []
            b = t[m.end():close(t, m.end() - 1) - 1]
            out[m[1]] = [re.search(r"fn (\w+)", it[1])[1] for it in items(b) if len(it) == 4 and re.search(r"\bfn\b", it[1])]
    return out, sup

# macro: file, trait, whether there are two versions, whether it takes many types
IMPL = {
    "impl_packed": ("vecs.rs", "Packed", False, False),
    "impl_packed_merge": ("intrin/merge.rs", "Merge", True, False),
    "impl_packed_swap_bytes": ("intrin/endian.rs", "Reendianize", True, False),
    "impl_destride": ("arch/ARCH/intrin/destride.rs", "Destride", False, False),
    "impl_packed_sum": ("intrin/sum.rs", "Sum", False, True),
    "impl_packed_upcast_sum": ("intrin/sum.rs", "UpcastSum", False, True),
    "impl_popcnt": ("intrin/popcnt.rs", "Popcnt", False, True),
    "impl_packed_transmute": ("intrin/transmute.rs", "Transmute", False, True),
}

rows = {}
def add(arch, tr, fn, vec, arg, file, line, cond):
    if not VEC.fullmatch(vec): return
    c = []
    for x in cond:
        if x not in c: c.append(x)
    rows.setdefault((arch, tr, fn, vec, arg), []).append((file, line, c))

for arch in ("x86", "unknown"):
    mods = set(re.findall(r"^mod (\w+);", open(f"{REPO}/src/arch/{arch}/intrin/mod.rs").read(), re.M))
    for f in sorted(glob.glob(f"{REPO}/src/arch/{arch}/**/*.rs", recursive=True)):
        b = os.path.basename(f)[:-3]
        if b == "mod" or ("/intrin/" in f and b not in mods): continue
        rel = os.path.relpath(f, REPO)
        t = open(f).read()
        for m in list(re.finditer(r"//.*", t)): t = blank(t, m.start(), m.end())
        for it in items(t):
            attrs, head, body, off = it[:4]
            line = t.count("\n", 0, off) + 1
            if m := re.match(r"unsafe fn (\w+)\(v: (\w+)\)", head):
                add(arch, "Helper", m[1], m[2], None, rel, line, conds(attrs))
                continue
            if re.match(r"(pub )?(mod|use|extern|macro_rules|pub struct|struct|pub type|const)\b", head): continue
            cond = conds(attrs)
            if m := re.match(r"impl (\w+)(?:<(\w+)>)? for (\w+)$", head):
                for jt in items(body, it[4]):
                    a2, h2, b2, o2 = jt[:4]
                    l2 = t.count("\n", 0, o2) + 1
                    if m2 := re.match(r"(?:unsafe )?fn (\w+)", h2):
                        add(arch, m[1], m2[1], m[3], m[2], rel, l2, cond + conds(a2))
                    elif m2 := re.match(r"hop\s*!", h2):
                        add(arch, m[1], re.match(r"\s*\(?\s*(\w+)", b2 or h2[h2.index("(") :])[1], m[3], m[2], rel, l2, cond + conds(a2))
                    elif re.match(r"type|const", h2): pass
                    else: raise Exception((rel, l2, h2))
            elif m := re.match(r"(\w+)\s*!", head):
                args = body
                n = m[1]
                if n in ("rust_fallback_impl", "rust_fallback_impl_binary", "rust_fallback_eq"):
                    h = re.match(r'\s*impl (\w+) for (\w+) where "([^"]*)" \{(.*)\}\s*$', args, re.S)
                    for r in re.finditer(r"(\w+)(?:,\s*(\w+))?\s*=>", h[4]):
                        for v in (True, False):
                            add(arch, h[1], r[1], h[2], None, rel, line, cond + [(h[3], v)])
                elif n in IMPL:
                    file, tr, gated, many = IMPL[n]
                    file = file.replace("ARCH", arch)
                    feats = [(re.search(r'"([^"]*)"', args)[1], v) for v in (True, False)] if gated else [None]
                    vs = vecs(args.split("...")[0])
                    for v in vs if many else vs[:1]:
                        for fn in macro_fns(file, n):
                            for g in feats: add(arch, tr, fn, v, None, rel, line, cond + ([g] if g else []))
                elif n in ("impl_packed_type", "impl_ops", "impl_assignops", "impl_from", "impl_cast"): pass
                else: raise Exception((rel, line, n))
            elif re.match(r"impl", head): print("skipped", rel, line, head)
            else: raise Exception((rel, line, head))

def vec(v):
    m = VEC.fullmatch(v)
    return f".{m[1]}, {int(m[2]) // 8}, {m[3]}"
def cond(c): return "[" + ", ".join(f'("{g}", {str(v).lower()})' for g, v in c) + "]"

TRAITS, SUPER = traits()
TR = {k: v for k, v in TRAITS.items() if any(r[1] == k for r in rows)}
TR["Helper"] = []
METH = {}
for (a, tr, fn, v, arg) in rows:
    assert METH.setdefault(fn, tr) == tr, fn
for tr, fns in TR.items():
    for fn in fns: assert METH.setdefault(fn, tr) == tr, fn
meths = sorted(METH)
low = lambda t: t[0].lower() + t[1:]

out = ["""import Verif.Intrin.ArithTables
/-
Implementations of the vector traits, extracted from the Rust sources by `tools/gen_impls.py`.
Do not edit by hand.
-/
namespace Faster

/-- The traits of src/intrin, src/vecs.rs and src/vec_patterns.rs which vectors implement; `helper`
stands for the functions of src/arch/x86/intrin/popcnt.rs. -/
inductive VTrait
"""]
for t in sorted(TR): out.append(f"  | {low(t)}\n")
out.append("""  deriving DecidableEq, Repr

/-- Their methods. -/
inductive Meth
""")
for m in meths: out.append(f"  | {m}\n")
out.append("""  deriving DecidableEq, Repr

/-- The trait of a method. -/
def Meth.trait : Meth → VTrait
""")
for m in meths: out.append(f"  | .{m} => .{low(METH[m])}\n")
out.append("""
/-- The methods of a trait which have no default. -/
def VTrait.required : VTrait → List Meth
""")
for t in sorted(TR): out.append(f"  | .{low(t)} => [" + ", ".join("." + m for m in TR[t]) + "]\n")
out.append("""
/-- The supertraits among these. -/
def VTrait.super : VTrait → List VTrait
""")
for t in sorted(TR): out.append(f"  | .{low(t)} => [" + ", ".join("." + low(u) for u in SUPER.get(t, []) if u in TR) + "]\n")
out.append("""
/-- A vector type: kind and bytes of a lane, number of lanes. -/
structure VType where
  kind : Kind
  size : Nat
  lanes : Nat
  deriving DecidableEq, Repr

/-- One version of a method: file below src/arch, line, and the target features which must be
(`true`) or must not be (`false`) enabled for it to be compiled, those of the `impl` included. -/
structure Version where
  file : String
  line : Nat
  cond : List (String × Bool)

/-- A method of a vector type, with all its versions; `arg` is the parameter of the trait. -/
structure ImplRow where
  meth : Meth
  vec : VType
  arg : Option VType
  versions : List Version
""")
for arch, name in (("x86", "implRows"), ("unknown", "implRowsUnknown")):
    out.append(f"""
/-- Methods of vector types under src/arch/{arch}. -/
def {name} : List ImplRow := [
""")
    body = []
    for (a, tr, fn, v, arg), vs in rows.items():
        if a != arch: continue
        w = ", ".join(f'⟨"{f[len("src/arch/" + arch) + 1:]}", {l}, {cond(c)}⟩' for f, l, c in vs)
        body.append(f"  ⟨.{fn}, ⟨{vec(v)}⟩, " + (f"some ⟨{vec(arg)}⟩" if arg else "none") + f", [{w}]⟩")
    out.append(",\n".join(body) + "\n]\n")
out.append("\nend Faster\n")
open(OUT, "w").write("".join(out))
