#!/usr/bin/env python3
"""Extract the literal lane tables of the crate into Lean.

Reads the Rust sources (default /repo) as text and writes
lean/Verif/Intrin/Tables.lean: the index and shuffle tables that the macros
`impl_packed_swap_bytes!`, `impl_packed_swizzle!`, `impl_packed_merge!` and the
destride polyfills are instantiated with.  Also checks that the generated
pattern constructors of vec_patterns.rs have exactly the lanes used by the
formulas in Verif/Intrin/Merge.lean and exits with an error if not.
"""
import re, sys, os

REPO = sys.argv[1] if len(sys.argv) > 1 else "/repo"
OUT = os.path.join(os.path.dirname(os.path.abspath(__file__)), "..", "lean", "Verif", "Intrin", "Tables.lean")

def read(p):
    return open(os.path.join(REPO, "src", p)).read()

def size(vec):
    return int(re.match(r"[uif](\d+)x", vec).group(1)) // 8

def width(vec):
    return int(vec.split("x")[1])

def nums(s):
    return [int(x) for x in re.findall(r"\d+", s)]

def lst(l):
    return "[" + ", ".join(map(str, l)) + "]"

out = []

def rows(name, doc, rs):
    out.append(f"/-- {doc} -/")
    out.append(f"def {name} : List ShuffleRow := [")
    out.append(",\n".join(
        f"  {{ vec := \"{v}\", line := {ln}, size := {size(v)}, width := {width(v)},\n"
        f"    ctl := {lst(c)},\n    idx := {lst(i)} }}" for v, ln, c, i in rs))
    out.append("]\n")

def shuffle_macro(path, macro):
    t = read(path)
    r = []
    for m in re.finditer(macro + r"!\((\w+), (\w+), \"([^\"]+)\", (\w+),\s*\(([^)]*)\),\s*\(([^)]*)\)\);", t):
        vec, uvec, feat, fn, c, i = m.groups()
        line = t[:m.start()].count("\n") + 1
        r.append((vec, line, nums(c), nums(i), feat, fn))
    return r

for path, macro, name, what in [
        ("arch/x86/intrin/endian.rs", "impl_packed_swap_bytes", "swapRows", "swap_bytes"),
        ("arch/x86/intrin/swizzle.rs", "impl_packed_swizzle", "flipRows", "flip")]:
    rs = shuffle_macro(path, macro)
    rows(name, f"Tables of `{what}` (src/{path}) for the 128- and 256-bit types: `ctl` is the\n"
               f"byte shuffle of the SSSE3/AVX2 version, `idx` the lanes of the fallback.",
         [r[:4] for r in rs if r[5] in ("_mm_shuffle_epi8", "_mm256_shuffle_epi8")])
    rows(name + "512", f"Tables of `{what}` (src/{path}) for the 512-bit types, whose optimized version\nis never compiled (\"avx512-butnotyet\").",
         [r[:4] for r in rs if r[4] == "avx512-butnotyet"])
    assert all(r[5] in ("_mm_shuffle_epi8", "_mm256_shuffle_epi8") or r[4] == "avx512-butnotyet" for r in rs)
    for r in rs:
        w = size(r[0]) * width(r[0])
        assert (r[5], r[4]) == {16: ("_mm_shuffle_epi8", "ssse3"), 32: ("_mm256_shuffle_epi8", "avx2"),
                                64: ("_mm512_permutexvar_epi8", "avx512-butnotyet")}[w], r
    # the unknown-arch instances use the same macro; only the fallback is compiled
    up = path.replace("x86", "unknown")
    if os.path.exists(os.path.join(REPO, "src", up)):
        us = shuffle_macro(up, macro)
        rows(name + "Unknown", f"Tables of `{what}` (src/{up}); only the fallback is compiled.", [r[:4] for r in us])

def merges(path):
    t = read(path)
    r = []
    for m in re.finditer(r"impl_packed_merge!\((\w+),\s*(\w+),\s*(\w+),\s*(\w+),\s*\"([^\"]+)\", \(([^)]*)\), \(([^)]*)\), ([^)]*)\);", t):
        vec, uvec, uscl, fn, feat, a, b, n = m.groups()
        r.append((vec, t[:m.start()].count("\n") + 1, nums(a), nums(b), nums(n), uvec, uscl, fn, feat))
    return r

for path, name in [("arch/x86/intrin/merge.rs", "mergeRows"), ("arch/unknown/intrin/merge.rs", "mergeRowsUnknown")]:
    rs = merges(path)
    out.append(f"/-- Lane lists of the merges (src/{path}). -/")
    out.append(f"def {name} : List MergeRow := [")
    out.append(",\n".join(
        f"  {{ vec := \"{r[0]}\", line := {r[1]}, size := {size(r[0])}, width := {width(r[0])},\n"
        f"    first := {lst(r[2])},\n    second := {lst(r[3])},\n    both := {lst(r[4])} }}" for r in rs))
    out.append("]\n")
    for r in rs:
        assert size(r[5]) == size(r[0]) and width(r[5]) == width(r[0]) and r[6] == "u%d" % (8 * size(r[0])), r
        if "unknown" not in path:
            w = size(r[0]) * width(r[0])
            assert (r[7], r[8]) == {16: ("_mm_blendv_epi8", "sse4.1"), 32: ("_mm256_blendv_epi8", "avx2"),
                                    64: ("_mm512_mask_mov_epi8", "avx512-butnotyet")}[w], r

def destrides(path):
    t = read(path)
    r = []
    for m in re.finditer(r"impl Destride for (\w+) \{(.*?)\n\}\n", t, re.S):
        vec, body = m.groups()
        two = re.findall(r"destride_two_polyfill!\(self, other, ([^)]*)\)", body)
        four = re.findall(r"destride_four_polyfill!\(self, b, c, d, ([^)]*)\)", body)
        assert len(two) == 1 and len(four) == 1
        r.append((vec, t[:m.start()].count("\n") + 1, nums(two[0]), nums(four[0])))
    for m in re.finditer(r"impl_destride!\((\w+), ([^)]*)\);", t):
        vec, l = m.groups()
        l = nums(l)
        r.append((vec, t[:m.start()].count("\n") + 1, l, l[0::2]))
    return r

for path, name in [("arch/x86/intrin/destride.rs", "destrideRows"), ("arch/unknown/intrin/destride.rs", "destrideRowsUnknown")]:
    rs = destrides(path)
    out.append(f"/-- Lane lists of the destride polyfills (src/{path}); the rows of `impl_destride!`\npass every index to `destride_two` and every other one to `destride_four`. -/")
    out.append(f"def {name} : List DestrideRow := [")
    out.append(",\n".join(
        f"  {{ vec := \"{r[0]}\", line := {r[1]}, width := {width(r[0])}, two := {lst(r[2])}, four := {lst(r[3])} }}" for r in rs))
    out.append("]\n")

def check_patterns(path, feats):
    t = read(path)
    n = 0
    pm = re.search(r"PART_MASK[^=]*= (.*?);\n", t, re.S).group(1)
    pm = [int(x, 16) for x in re.findall(r"0x([0-9A-Fa-f]+)", pm)]
    assert pm == [0] * 64 + [255] * 64, (path, len(pm))
    for m in re.finditer(r"impl Pattern for (\w+) \{(.*?)\n\}\n", t, re.S):
        vec, body = m.groups()
        w, s = width(vec), size(vec)
        new = lambda hl: "Self::new(" + ", ".join(hl) + ")"
        halfs = re.search(r"fn halfs\(hi[^{]*\{\s*(.*?)\s*\}", body, re.S).group(1)
        assert halfs == new(["hi"] * (w // 2) + ["lo"] * (w - w // 2)), (vec, "halfs")
        inter = re.search(r"fn interleave\(hi[^{]*\{\s*(.*?)\s*\}", body, re.S).group(1)
        assert inter == new(["hi" if i % 2 == 0 else "lo" for i in range(w)]), (vec, "interleave")
        rows = dict((int(a), b) for a, b in re.findall(r"(\d+) => (Self::new\([^)]*\))", body))
        assert sorted(rows) == list(range(w + 1)), (vec, "partition rows")
        for k, v in rows.items():
            assert v == new(["hi"] * k + ["lo"] * (w - k)), (vec, "partition", k)
        assert "debug_assert!(off <= Self::WIDTH);\n                debug_assert!(off * Self::Scalar::SIZE <= 64);\n                Self::load(unsafe { transmute(&PART_MASK[..]) }, 64 / Self::Scalar::SIZE - off)" in body, vec
        assert "assert!(off <= Self::WIDTH);" in body
        assert f"Self::splat(unsafe {{ transmute(0x{'FF' * s}u{8 * s}) }})" in body, (vec, "ones")
        assert f"Self::splat(unsafe {{ transmute(0x{'00' * s}u{8 * s}) }})" in body, (vec, "zeroes")
        fs = re.findall(r"cfg\(target_feature = \"([^\"]+)\"\)", body)
        assert all(f in feats for f in fs), (vec, fs)
        n += 1
    print(f"{path}: {n} pattern types agree with the formulas")

check_patterns("arch/x86/vec_patterns.rs", ("avx512-notyet", "avx2", "sse4.1"))
check_patterns("arch/unknown/vec_patterns.rs", ("__undefined",))

head2 = '''/-
Instantiations of the arithmetic macros and the instructions used under each
feature gate, extracted from the Rust sources by `tools/gen_tables.py`. Do not
edit by hand.
-/
namespace Faster

/-- Kind of a lane type: unsigned integer, signed integer or float. -/
inductive Kind | u | i | f
  deriving DecidableEq, Repr

INSTR
/-- Scalar operations named in the macros: methods of the fallbacks and the
operations given to `hop!` (`Add::add`, `T::saturating_add`, …). -/
inductive Fn | add | sub | saturating_add | saturating_sub | min | max | eq
  deriving DecidableEq, Repr

/-- One method of a `rust_fallback_impl_binary!`/`rust_fallback_eq!` instance:
vector type, source line, lane kind, bytes per lane, lanes, scalar method of the
fallback, feature gate and instruction of the optimized version, lane list. -/
structure BinRow where
  vec : String
  line : Nat
  kind : Kind
  size : Nat
  width : Nat
  fn : Fn
  gate : Gate
  mm : Instr
  idx : List Nat

/-- One `hop!` instance: vector type, source line, lane kind, bytes per lane,
lanes, scalar operation, lane list. -/
structure HopRow where
  vec : String
  line : Nat
  kind : Kind
  size : Nat
  width : Nat
  op : Fn
  idx : List Nat

/-- One use of an instruction in code compiled only with feature `gate`. -/
structure GateRow where
  file : String
  line : Nat
  gate : Gate
  mm : Instr

'''
out2 = []
GATE = {"sse": ".sse", "sse2": ".sse2", "sse3": ".sse3", "ssse3": ".ssse3", "sse4.1": ".sse41", "avx": ".avx",
        "avx2": ".avx2", "avx512-notyet": ".never", "avx512-butnotyet": ".never", "__undefined": ".never"}
used = set()

def instr(mm):
    mm = mm.lstrip("_")
    used.add(mm)
    return "." + mm

def lineno(t, i):
    return t[:i].count("\n") + 1

def binrows(path, macro, meth):
    t = read(path)
    r = []
    n = len(re.findall(macro + r"! \{", t))
    for m in re.finditer(macro + r"! \{\s*impl (\w+) for (\w+) where \"([^\"]+)\" \{(.*?)\n    \}\n\}", t, re.S):
        tr, vec, gate, body = m.groups()
        n -= 1
        k = 0
        for b in re.finditer(meth + r"(\w+)\(([^)]*)\),\s*\[([^\]]*)\];", body):
            g = b.groups()
            ln = lineno(t, m.start(4) + b.start())
            if macro == "rust_fallback_eq":
                fn, mvec, mel, mm, args, idx = g
                assert mvec == "u%dx%d" % (8 * size(vec), width(vec)) and mel == "u%d" % (8 * size(vec)), (path, vec)
            else:
                fn, mm, args, idx = g
            r.append((vec, ln, fn, gate, mm, nums(idx)))
            k += 1
        assert k == body.count("=>"), (path, vec)
    assert n == 0, (path, macro, n)
    return r

def emit_bin(name, doc, rs):
    out2.append(f"/-- {doc} -/")
    out2.append(f"def {name} : List BinRow := [")
    out2.append(",\n".join(
        f"  {{ vec := \"{v}\", line := {ln}, kind := .{v[0]}, size := {size(v)}, width := {width(v)}, fn := .{fn},\n"
        f"    gate := {GATE[gate]}, mm := {instr(mm)}, idx := {lst(i)} }}" for v, ln, fn, gate, mm, i in rs))
    out2.append("]\n")

gates = []
for f, name in [("saturating_add", "satAdd"), ("saturating_sub", "satSub"), ("cmp", "cmp"), ("eq", "eq")]:
    macro = "rust_fallback_eq" if f == "eq" else "rust_fallback_impl_binary"
    meth = r"eq_mask, (\w+) => (\w+), (\w+), " if f == "eq" else r"(\w+) => "
    for arch, suf in [("x86", "Rows"), ("unknown", "RowsUnknown")]:
        path = f"arch/{arch}/intrin/{f}.rs"
        rs = binrows(path, macro, meth)
        emit_bin(name + suf, f"Instances in src/{path}.", rs)

def hoprows(path):
    t = read(path)
    r = []
    for m in re.finditer(r"impl (\w+) for (\w+) \{ hop!\((\w+), ([\w:]+), ([^)]*)\); \}", t):
        tr, vec, fn, op, idx = m.groups()
        if op in ("Add::add", "Sub::sub"):
            op = "." + op[5:]
        else:
            ty, op = op.split("::")
            assert ty == vec.split("x")[0], (path, vec)
            op = "." + op
        r.append((vec, lineno(t, m.start()), op, nums(idx)))
    assert len(r) == t.count("hop!("), path
    return r

for f, name in [("hadd", "hadd"), ("hsub", "hsub"), ("saturating_hadd", "satHadd"), ("saturating_hsub", "satHsub")]:
    for arch, suf in [("x86", "Rows"), ("unknown", "RowsUnknown")]:
        path = f"arch/{arch}/intrin/{f}.rs"
        out2.append(f"/-- `hop!` instances in src/{path}. -/")
        out2.append(f"def {name}{suf} : List HopRow := [")
        out2.append(",\n".join(
            f"  {{ vec := \"{v}\", line := {ln}, kind := .{v[0]}, size := {size(v)}, width := {width(v)}, op := {op},\n"
            f"    idx := {lst(i)} }}" for v, ln, op, i in hoprows(path)))
        out2.append("]\n")

# instructions per feature gate
def gaterows():
    r = []
    d = os.path.join(REPO, "src", "arch/x86/intrin")
    for f in sorted(os.listdir(d)):
        if not f.endswith(".rs") or f in ("mod.rs", "addsub.rs", "cast.rs"):
            continue
        path = "arch/x86/intrin/" + f
        t = read(path)
        # items and methods under #[cfg(target_feature = "...")]
        spans = []
        for m in re.finditer(r"( *)#\[cfg\(target_feature = \"([^\"]+)\"\)\]\n", t):
            ind = m.group(1)
            e = t.index("\n" + ind + "}", m.end())
            spans.append((m.end(), e, m.group(2)))
        for m in re.finditer(r"impl \w+ for \w+ where \"([^\"]+)\" \{(.*?)\n    \}", t, re.S):
            spans.append((m.start(2), m.end(2), m.group(1)))
        for m in re.finditer(r"impl_packed_\w+!\([^;]*?\"([^\"]+)\"[^;]*;", t):
            spans.append((m.start(), m.end(), m.group(1)))
        for m in re.finditer(r"_mm\d*_\w+", t):
            ln = lineno(t, m.start())
            src = t.split("\n")[ln - 1].strip()
            if src.startswith("//"):
                continue
            inside = [s for s in spans if s[0] <= m.start() < s[1]]
            assert inside, (path, ln, m.group(0))
            r.append((path, ln, inside[-1][2], m.group(0)))
    return r

t = read("arch/x86/vec_patterns.rs")
gr = gaterows()
for m in re.finditer(r"#\[cfg\(target_feature = \"([^\"]+)\"\)\][^{]*\{(.*?)\n    \}", t, re.S):
    for b in re.finditer(r"_mm\d*_\w+", m.group(2)):
        gr.append(("arch/x86/vec_patterns.rs", lineno(t, m.start(2) + b.start()), m.group(1), b.group(0)))
out2.append("/-- Every use of an x86 instruction under src/arch/x86, with the feature gate of the\ncode around it. -/")
out2.append("def gateRows : List GateRow := [")
out2.append(",\n".join(f"  ⟨\"{p}\", {ln}, {GATE[g]}, {instr(mm)}⟩" for p, ln, g, mm in gr))
out2.append("]\n")
# ---- abs, upcast and downcast -------------------------------------------------
out3 = []

def items(path, trait):
    """(vec, line, trait argument, {gate: body}) for every `impl Trait for vec`; the
    body compiled without the feature has gate None."""
    t = read(path)
    r = []
    for m in re.finditer(r"impl " + trait + r"(?:<(\w+)>)? for (\w+) \{(.*?)\n\}\n", t, re.S):
        arg, vec, body = m.groups()
        fns = {}
        for f in re.finditer(r"((?:    #\[[^\n]*\]\n)*)    fn \w+\([^)]*\) -> [^{]*\{\n(.*?)\n    \}", body, re.S):
            attrs, code = f.groups()
            pos = re.search(r"cfg\(target_feature = \"([^\"]+)\"\)", attrs)
            neg = re.search(r"cfg\(not\(target_feature = \"([^\"]+)\"\)\)", attrs)
            key = pos.group(1) if pos else None
            assert key not in fns
            fns[key] = re.sub(r"\s+", "", re.sub(r"//[^\n]*", "", code))
            if neg:
                fns["not"] = neg.group(1)
        gates_ = [k for k in fns if k not in (None, "not")]
        assert len(gates_) <= 1 and None in fns, (path, vec)
        if gates_:
            assert fns.get("not") == gates_[0], (path, vec)
        r.append((vec, t[:m.start()].count("\n") + 1, arg, gates_[0] if gates_ else None,
                  fns[gates_[0]] if gates_ else None,
                  re.sub(r"unsafe\{(transmute[^}]*)\}", r"\1", fns[None].replace("fallback!();", ""))))
    assert len(r) == len(re.findall(r"\nimpl " + trait + r"(?:<\w+>)? for", t)), path
    return r

def opt(x):
    return "none" if x is None else f"some {x}"

def bare(code):
    """Drop bit reinterpretations: be_*() and transmute(...)."""
    code = re.sub(r"\.be_\w+\(\)", "", code)
    while "transmute(" in code:
        i = code.index("transmute(")
        d, j = 0, i + len("transmute")
        while True:
            d += {"(": 1, ")": -1}.get(code[j], 0)
            if d == 0:
                break
            j += 1
        code = code[:i] + code[i + len("transmute("):j] + code[j + 1:]
    return code

for arch, suf in [("x86", "Rows"), ("unknown", "RowsUnknown")]:
    path = f"arch/{arch}/intrin/abs.rs"
    out3.append(f"/-- Instances of `Abs` in src/{path}. -/")
    out3.append(f"def abs{suf} : List AbsRow := [")
    rs = []
    for vec, ln, _, gate, o, fb in items(path, "Abs"):
        n, w = 8 * size(vec), width(vec)
        mm, mask = None, 0
        if gate:
            if vec[0] == "f":
                m = re.fullmatch(r"optimized!\(\);unsafe\{(_mm\w+)\(\*self,Self::splat\(transmute::<u(\d+),f(\d+)>\(0x(\w+)\)\)\)\}", o)
                assert m and int(m.group(2)) == n and int(m.group(3)) == n, (path, vec, o)
                mm, mask = m.group(1), int(m.group(4), 16)
            else:
                m = re.fullmatch(r"optimized!\(\);unsafe\{(_mm\w+)\(\*self\)\}", bare(o))
                assert m, (path, vec, o)
                mm = m.group(1)
        m = re.fullmatch(r"(?:unsafe\{)?(?:Self::Out|[ui]\d+x\d+)::new\((.*)\)\}?", fb)
        assert m, (path, vec, fb)
        idx = []
        for e in m.group(1).split(",") if vec[0] == "f" else re.split(r",(?=transmute)", m.group(1)):
            if vec[0] == "f":
                k = re.fullmatch(r"self\.extract\((\d+)\)\.abs\(\)", e)
            else:
                k = re.fullmatch(r"transmute::<i%d,u%d>\(self\.extract\((\d+)\)\.overflowing_abs\(\)\.0\)" % (n, n), e)
            assert k, (path, vec, e)
            idx.append(int(k.group(1)))
        rs.append(f"  {{ vec := \"{vec}\", line := {ln}, kind := .{vec[0]}, size := {size(vec)}, width := {w}, "
                  f"gate := {opt(GATE[gate] if gate else None)},\n    mm := {opt(instr(mm) if mm else None)}, mask := {hex(mask)}, idx := {lst(idx)} }}")
    out3.append(",\n".join(rs))
    out3.append("]\n")

    path = f"arch/{arch}/intrin/upcast.rs"
    out3.append(f"/-- Instances of `Upcast` in src/{path}. -/")
    out3.append(f"def upcast{suf} : List UpRow := [")
    rs = []
    for vec, ln, to, gate, o, fb in items(path, "Upcast"):
        assert size(to) == 2 * size(vec) and 2 * width(to) == width(vec)
        mm = None
        if gate:
            if size(vec) * width(vec) == 16:
                m = re.fullmatch(r"optimized!\(\);unsafe\{\((\w+)\(self\),(\w+)\(_mm_shuffle_epi32\(self,0x0E\)\)\)\}", bare(o))
            else:
                m = re.fullmatch(r"optimized!\(\);unsafe\{\((\w+)\(_mm256_castsi256_si128\(self\)\),(\w+)\(_mm256_castsi256_si128\(_mm256_permute4x64_epi64\(self,0x0E\)\)\)\)\}", bare(o))
            assert m and m.group(1) == m.group(2), (path, vec, bare(o))
            mm = m.group(1)
        m = re.fullmatch(r"\(%s::new\(([^:]*)\),%s::new\(([^:]*)\)\)" % (to, to), fb)
        assert m, (path, vec, fb)
        ls = []
        for g in m.groups():
            es = [re.fullmatch(r"self\.extract\((\d+)\)as%s" % to.split("x")[0], e) for e in g.split(",")]
            assert all(es), (path, vec, g)
            ls.append([int(e.group(1)) for e in es])
        rs.append(f"  {{ vec := \"{vec}\", to := \"{to}\", line := {ln}, kind := .{vec[0]}, toKind := .{to[0]}, size := {size(vec)},\n"
                  f"    width := {width(vec)}, gate := {opt(GATE[gate] if gate else None)}, mm := {opt(instr(mm) if mm else None)},\n"
                  f"    first := {lst(ls[0])}, second := {lst(ls[1])} }}")
    out3.append(",\n".join(rs))
    out3.append("]\n")

    path = f"arch/{arch}/intrin/downcast.rs"
    out3.append(f"/-- Instances of `Downcast` in src/{path}. -/")
    out3.append(f"def downcast{suf} : List DownRow := [")
    rs = []
    for vec, ln, to, gate, o, fb in items(path, "Downcast"):
        assert size(vec) == 2 * size(to) and 2 * width(vec) == width(to)
        mm = None
        if gate:
            m = re.fullmatch(r"optimized!\(\);unsafe\{(\w+)\(self,other\)\}", bare(o))
            assert m, (path, vec, bare(o))
            mm = m.group(1)
        m = re.fullmatch(r"%s::new\((.*)\)" % to, fb)
        assert m, (path, vec, fb)
        ls = []
        for e in m.group(1).split(","):
            k = re.fullmatch(r"(self|other)\.extract\((\d+)\)(?:\.min\(0x(\w+)\))?(?:\.max\(-0x(\w+)\))?as%s" % to.split("x")[0], e)
            assert k, (path, vec, e)
            s_, i_, mn, mx = k.groups()
            assert (mn is None) == (vec[0] == "f") and (mx is None) == (vec[0] != "i"), (path, vec, e)
            ls.append(f"⟨{'true' if s_ == 'self' else 'false'}, {i_}, {int(mn, 16) if mn else 0}, {'-' + str(int(mx, 16)) if mx else 0}⟩")
        rs.append(f"  {{ vec := \"{vec}\", to := \"{to}\", line := {ln}, kind := .{vec[0]}, toKind := .{to[0]}, size := {size(to)},\n"
                  f"    width := {width(vec)}, gate := {opt(GATE[gate] if gate else None)}, mm := {opt(instr(mm) if mm else None)},\n"
                  f"    lanes := [{', '.join(ls)}] }}")
    out3.append(",\n".join(rs))
    out3.append("]\n")

head3 = """import Verif.Intrin.ArithTables
/-
Instances of `Abs`, `Upcast` and `Downcast`, extracted from the Rust sources by
`tools/gen_tables.py`. Do not edit by hand.
-/
namespace Faster

/-- One `impl Abs`: vector type, source line, lane kind, bytes per lane, lanes;
gate and instruction of the optimized version if there is one, the constant the
float versions mask with; lanes of the fallback
(`transmute(self.extract(k).overflowing_abs().0)` or `self.extract(k).abs()`). -/
structure AbsRow where
  vec : String
  line : Nat
  kind : Kind
  size : Nat
  width : Nat
  gate : Option Gate
  mm : Option Instr
  mask : Nat
  idx : List Nat

/-- One `impl Upcast<to> for vec`: source line, lane kinds, bytes per source lane,
source lanes; gate and conversion instruction of the optimized version, if there
is one (128 bits: `(mm(self), mm(_mm_shuffle_epi32(self, 0x0E)))`; 256 bits:
`(mm(castsi256_si128(self)), mm(castsi256_si128(permute4x64_epi64(self, 0x0E))))`,
with bit reinterpretations left out); lanes of the two vectors of the fallback
(`self.extract(k) as to`). -/
structure UpRow where
  vec : String
  to : String
  line : Nat
  kind : Kind
  toKind : Kind
  size : Nat
  width : Nat
  gate : Option Gate
  mm : Option Instr
  first : List Nat
  second : List Nat

/-- One lane of a downcast fallback: `self.extract(idx).min(top).max(bottom) as to`,
or `other` instead of `self`; floats have neither `min` nor `max` and unsigned
lanes have no `max` (0 here). -/
structure DownLane where
  self : Bool
  idx : Nat
  top : Int
  bottom : Int
  deriving DecidableEq

/-- One `impl Downcast<to> for vec`: source line, lane kinds, bytes per *result*
lane, source lanes; gate and pack instruction of the optimized version
(`mm(self, other)`), if there is one; lanes of the fallback. -/
structure DownRow where
  vec : String
  to : String
  line : Nat
  kind : Kind
  toKind : Kind
  size : Nat
  width : Nat
  gate : Option Gate
  mm : Option Instr
  lanes : List DownLane

"""
OUT3 = os.path.join(os.path.dirname(OUT), "CastTables.lean")
open(OUT3, "w").write(head3 + "\n".join(out3) + "\nend Faster\n")
print("wrote", os.path.normpath(OUT3))

# ---- unary float operations ------------------------------------------------------
out5 = []
IMM = {"": 0, "_MM_FROUND_TO_NEAREST_INT": 0, "_MM_FROUND_TRUNC": 3}

def unrows(path):
    t = re.sub(r"^//[^\n]*", "", read(path), flags=re.M)
    r = []
    n = len(re.findall(r"rust_fallback_impl! \{", t))
    for m in re.finditer(r"rust_fallback_impl! \{\s*impl (\w+) for (\w+) where \"([^\"]+)\" \{(.*?)\n    \}\n\}", t, re.S):
        tr, vec, gate, body = m.groups()
        n -= 1
        k = 0
        for b in re.finditer(r"(\w+) => (\w+)\(([^)]*)\),\s*\[([^\]]*)\];", body):
            fn, mm, args, idx = b.groups()
            r.append((vec, lineno(t, m.start(4) + b.start()), fn, gate, mm, IMM[args], nums(idx)))
            k += 1
        assert k == body.count("=>"), (path, vec)
    assert n == 0, path
    return r

for f, name in [("round", "round"), ("sqrt", "sqrt"), ("recip", "recip"), ("rsqrt", "rsqrt")]:
    for arch, suf in [("x86", "Rows"), ("unknown", "RowsUnknown")]:
        path = f"arch/{arch}/intrin/{f}.rs"
        out5.append(f"/-- Instances in src/{path}. -/")
        out5.append(f"def {name}{suf} : List UnRow := [")
        out5.append(",\n".join(
            f"  {{ vec := \"{v}\", line := {ln}, kind := .{v[0]}, size := {size(v)}, width := {width(v)}, fn := .{fn},\n"
            f"    gate := {GATE[gate]}, mm := {instr(mm)}, imm := {imm}, idx := {lst(i)} }}" for v, ln, fn, gate, mm, imm, i in unrows(path)))
        out5.append("]\n")

head5 = """import Verif.Intrin.ArithTables
/-
Instances of `Round`, `Sqrt`, `Recip` and `Rsqrt`, extracted from the Rust sources
by `tools/gen_tables.py`. Do not edit by hand.
-/
namespace Faster

/-- Scalar float methods of the fallbacks. -/
inductive UnFn | round | ceil | floor | trunc | sqrt | recip | rsqrt
  deriving DecidableEq, Repr

/-- One method of a `rust_fallback_impl!` instance: vector type, source line, lane
kind, bytes per lane, lanes, scalar method of the fallback, feature gate,
instruction and immediate operand of the optimized version
(`_MM_FROUND_TO_NEAREST_INT` is 0, `_MM_FROUND_TRUNC` is 3, no operand is 0 too),
lane list. -/
structure UnRow where
  vec : String
  line : Nat
  kind : Kind
  size : Nat
  width : Nat
  fn : UnFn
  gate : Gate
  mm : Instr
  imm : Nat
  idx : List Nat

"""
OUT5 = os.path.join(os.path.dirname(OUT), "RoundTables.lean")
open(OUT5, "w").write(head5 + "\n".join(out5) + "\nend Faster\n")
print("wrote", os.path.normpath(OUT5))

OUT2 = os.path.join(os.path.dirname(OUT), "ArithTables.lean")
ind = ("/-- Feature gates; `never` stands for names that are never enabled (\"avx512-notyet\",\n\"__undefined\", …). -/\n"
       "inductive Gate | sse | sse2 | sse3 | ssse3 | sse41 | avx | avx2 | never\n  deriving DecidableEq, Repr\n\n"
       "/-- The x86 intrinsics named in src/arch/x86 (without the leading underscore). -/\ninductive Instr\n  | "
       + "\n  | ".join(sorted(used)) + "\n  deriving DecidableEq, Repr\n")
open(OUT2, "w").write(head2.replace("INSTR", ind) + "\n".join(out2) + "\nend Faster\n")
print("wrote", os.path.normpath(OUT2))

head = '''/-
Literal lane tables of the crate, extracted from the Rust sources by
`tools/gen_tables.py`. Do not edit by hand.
-/
namespace Faster

/-- One instantiation of a byte-shuffle macro: vector type, source line, bytes
per lane, lanes, control bytes of the shuffle, lane numbers of the fallback. -/
structure ShuffleRow where
  vec : String
  line : Nat
  size : Nat
  width : Nat
  ctl : List Nat
  idx : List Nat

/-- One instantiation of `impl_packed_merge!`: lane lists `$a`, `$b` of
`merge_halves` and `$na, $nb` of `merge_interleaved`. -/
structure MergeRow where
  vec : String
  line : Nat
  size : Nat
  width : Nat
  first : List Nat
  second : List Nat
  both : List Nat

/-- Lane lists given to `destride_two_polyfill!` and `destride_four_polyfill!`. -/
structure DestrideRow where
  vec : String
  line : Nat
  width : Nat
  two : List Nat
  four : List Nat

'''
open(OUT, "w").write(head + "\n".join(out) + "\nend Faster\n")
print("wrote", os.path.normpath(OUT))

# ---- vector type selection and software vectors --------------------------------
out4 = []

def strs(s):
    return "[" + ", ".join('"%s"' % x for x in re.findall(r'"([^"]+)"', s)) + "]"

for arch, name in [("x86", "packedRows"), ("unknown", "packedRowsUnknown")]:
    path = f"arch/{arch}/vecs.rs"
    t = read(path)
    ms = list(re.finditer(r"^impl_packed!\((\w+), (\w+), (\w+), (\d+), (\d+), \[([^\]]*)\], \[([^\]]*)\]\);", t, re.M))
    assert len(ms) == len(re.findall(r"^impl_packed!", t, re.M))
    out4.append(f"/-- `impl_packed!` instances in src/{path}. -/")
    out4.append(f"def {name} : List PackedRow := [")
    out4.append(",\n".join(
        f"  {{ el := \"{m[1]}\", alias := \"{m[2]}\", vec := \"{m[3]}\", line := {lineno(t, m.start())}, elSize := {size(m[1] + 'x1')},\n"
        f"    lanes := {width(m[3])}, size := {m[4]}, width := {m[5]}, on := {strs(m[6])}, off := {strs(m[7])} }}" for m in ms))
    out4.append("]\n")

path = "arch/unknown/vecs.rs"
t = read(path)
ms = list(re.finditer(r"^impl_packed_type!\((\w+), \w+, (\w+), (\d+), \[([^\]]*)\]\);", t, re.M))
assert len(ms) == len(re.findall(r"^impl_packed_type!", t, re.M))
out4.append(f"/-- `impl_packed_type!` instances in src/{path}. -/")
out4.append("def softRows : List SoftRow := [")
out4.append(",\n".join(
    f"  {{ el := \"{m[1]}\", vec := \"{m[2]}\", line := {lineno(t, m.start())}, elSize := {size(m[1] + 'x1')}, vecSize := {size(m[2])},\n"
    f"    lanes := {width(m[2])}, width := {m[3]}, params := {lst(nums(m[4].replace('x', '')))} }}" for m in ms))
out4.append("]\n")

OPS = {"*": "mul", "/": "div", "+": "add", "-": "sub", "<<": "shl", ">>": "shr", "%": "rem",
       "&": "and", "|": "or", "^": "xor"}
TR = {"Mul": "mul", "Div": "div", "Add": "add", "Sub": "sub", "Shl": "shl", "Shr": "shr", "Rem": "rem",
      "BitAnd": "and", "BitOr": "or", "BitXor": "xor"}
for macro, name in [("impl_ops", "softOps"), ("impl_assignops", "softAssignOps")]:
    ms = list(re.finditer(r"^" + macro + r"!\((\w+), (\w+), (.*?)\);", t, re.M | re.S))
    assert len(ms) == len(re.findall(r"^" + macro + "!", t, re.M))
    out4.append(f"/-- `{macro}!` instances in src/{path}. -/")
    out4.append(f"def {name} : List SoftOpRow := [")
    rs_ = []
    for m in ms:
        ops = re.findall(r"\[(\w+), (\w+), ([^\]]+)\]", m[3])
        assert len(ops) == m[3].count("[")
        if macro == "impl_assignops":
            assert all(a.endswith("Assign") and b.endswith("_assign") and c.endswith("=") for a, b, c in ops)
            ops = [(a[:-6], b[:-7], c[:-1]) for a, b, c in ops]
        assert all(a.lower() == b for a, b, c in ops)
        rs_.append(f"  {{ el := \"{m[1]}\", vec := \"{m[2]}\", line := {lineno(t, m.start())}, kind := .{m[2][0]},\n    ops := ["
                   + ", ".join(f"(.{TR[a]}, .{OPS[c]})" for a, b, c in ops) + "] }")
    out4.append(",\n".join(rs_))
    out4.append("]\n")

ms = list(re.finditer(r"^impl_cast!\((\w+), (\w+), (\w+), (\w+)\);", t, re.M))
assert len(ms) == len(re.findall(r"^impl_cast!", t, re.M))
out4.append(f"/-- `impl_cast!` instances in src/{path}. -/")
out4.append("def softCasts : List SoftCastRow := [")
for m in ms:
    assert m[4] == "be_%ss_cast" % m[3] or m[4] == "cast" or m[3] in m[4], m[0]
out4.append(",\n".join(
    f"  {{ vec := \"{m[1]}\", to := \"{m[2]}\", el := \"{m[3]}\", name := \"{m[4]}\", line := {lineno(t, m.start())}, lanes := {width(m[1])},\n"
    f"    toLanes := {width(m[2])} }}" for m in ms))
out4.append("]\n")

ms = list(re.finditer(r"^impl_from!\((\w+), ([^)]*)\);", t, re.M))
assert len(ms) == len(re.findall(r"^impl_from!", t, re.M))
out4.append(f"/-- `impl_from!` instances in src/{path}: target, bytes, bytes of every source. -/")
out4.append("def softFroms : List (String × Nat × List (String × Nat)) := [")
out4.append(",\n".join(
    f"  (\"{m[1]}\", {size(m[1]) * width(m[1])}, [" + ", ".join(
        f"(\"{x}\", {size(x) * width(x)})" for x in re.findall(r"\w+", m[2])) + "])" for m in ms))
out4.append("]\n")

head4 = '''import Verif.Intrin.ArithTables
/-
Tables of vector types, extracted from the Rust sources by `tools/gen_tables.py`.
Do not edit by hand.
-/
namespace Faster

/-- `impl_packed!($el, $elvec, $vec, size, width, [$feat], [$nfeat])`: implements
`Packed` for `$vec`; `$elvec` names `$vec` and `$vec` is the vector type of `$el`
if all features in `on` and none in `off` are enabled. `elSize`, `lanes`: bytes and
lanes according to the type names. -/
structure PackedRow where
  el : String
  alias : String
  vec : String
  line : Nat
  elSize : Nat
  lanes : Nat
  size : Nat
  width : Nat
  on : List String
  off : List String
  deriving DecidableEq

/-- `impl_packed_type!($el, _, $vec, width, [params])`. `lanes`: according to the
name of the vector. `params`: numbers of the parameters of `new`. -/
structure SoftRow where
  el : String
  vec : String
  line : Nat
  elSize : Nat
  vecSize : Nat
  lanes : Nat
  width : Nat
  params : List Nat

/-- Operators. -/
inductive Oper | mul | div | add | sub | shl | shr | rem | and | or | xor
  deriving DecidableEq, Repr

/-- `impl_ops!` and `impl_assignops!`: pairs of the trait implemented and the
scalar operator used for it. -/
structure SoftOpRow where
  el : String
  vec : String
  line : Nat
  kind : Kind
  ops : List (Oper × Oper)

/-- `impl_cast!($vec, $to, $el, $name)`. -/
structure SoftCastRow where
  vec : String
  to : String
  el : String
  name : String
  line : Nat
  lanes : Nat
  toLanes : Nat

'''
OUT4 = os.path.join(os.path.dirname(OUT), "VecTables.lean")
open(OUT4, "w").write(head4 + "\n".join(out4) + "\nend Faster\n")
print("wrote", os.path.normpath(OUT4))
