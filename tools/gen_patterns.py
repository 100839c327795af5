#!/usr/bin/env python3
"""Extract the generated pattern constructors of the crate into Lean.

Reads src/arch/{x86,unknown}/vec_patterns.rs (default below /repo) as text and writes
lean/Verif/Intrin/PatternTables.lean: the arguments of every `Self::new` of `halfs`, `interleave`
and `partition`, the literals of `ones` and `zeroes`, and the bytes of PART_MASK.
"""
import re, sys, os

REPO = sys.argv[1] if len(sys.argv) > 1 else "/repo"
OUT = os.path.join(os.path.dirname(os.path.abspath(__file__)), "..", "lean", "Verif", "Intrin", "PatternTables.lean")

HEAD = '''/-
The literals of `src/arch/x86/vec_patterns.rs` and `src/arch/unknown/vec_patterns.rs`. Written by
`tools/gen_patterns.py`.
-/
namespace Faster

/-- The arguments of `Self::new(hi, lo, …)`: their number, and a number whose bit `i` is set if
argument `i` is `hi`; the others are `lo`. -/
structure Args where
  count : Nat
  his : Nat
deriving DecidableEq, Repr

/-- One `impl Pattern` and the line it starts at: element size in bytes and number of lanes of
the vector type, the arguments in `halfs` and `interleave`, the arms of the `match` in
`partition`, and the literals of `ones` and `zeroes` with their number of bits. -/
structure PatternRow where
  vec : String
  line : Nat
  size : Nat
  width : Nat
  halfs : Args
  interleave : Args
  arms : List (Nat × Args)
  ones : Nat × Nat
  zeroes : Nat × Nat
deriving DecidableEq, Repr

'''

def args(s):
    m = re.fullmatch(r"Self::new\(((?:hi|lo)(?:, (?:hi|lo))*)\)", s)
    l = m.group(1).split(", ")
    return f"⟨{len(l)}, 0x{sum(1 << i for i, a in enumerate(l) if a == 'hi'):X}⟩"

out = []
for arch, name in [("x86", "patternRows"), ("unknown", "patternRowsUnknown")]:
    t = open(os.path.join(REPO, "src", "arch", arch, "vec_patterns.rs")).read()
    pm = re.search(r"PART_MASK: \[u8; 128\] = \[(.*?)\];\n", t, re.S).group(1)
    pm = [int(x, 16) for x in pm.split(",")]
    pn = "partMaskBytes" + ("" if arch == "x86" else "Unknown")
    out.append(f"/-- `PART_MASK` (src/arch/{arch}/vec_patterns.rs). -/\ndef {pn} : List Nat := [")
    out.append(",\n".join("  " + ", ".join(map(str, pm[i:i + 16])) for i in range(0, len(pm), 16)) + "]\n")
    rows = []
    for m in re.finditer(r"impl Pattern for (\w+) \{(.*?)\n\}\n", t, re.S):
        vec, body = m.groups()
        s, w = re.match(r"[uif](\d+)x(\d+)$", vec).groups()
        halfs = re.search(r"fn halfs\(hi: Self::Scalar, lo: Self::Scalar\) -> Self \{\s*(.*?)\s*\}", body, re.S).group(1)
        inter = re.search(r"fn interleave\(hi: Self::Scalar, lo: Self::Scalar\) -> Self \{\s*(.*?)\s*\}", body, re.S).group(1)
        mt = re.search(r"fn partition\(hi: Self::Scalar, lo: Self::Scalar, off: usize\) -> Self \{\s*"
                       r"assert!\(off <= Self::WIDTH\);\s*fallback!\(\);\s*match off \{\s*(.*?),\s*_ => unreachable!\(\)\s*\}\s*\}",
                       body, re.S).group(1)
        arms = []
        for a in re.split(r",\n\s*", mt):
            k, v = a.split(" => ")
            arms.append(f"({int(k)}, {args(v)})")
        lits = [re.search(r"fn " + f + r"\(\) -> Self \{\s*Self::splat\(unsafe \{ transmute\(0x([0-9A-F]+)u(\d+)\) \}\)\s*\}", body).groups()
                for f in ("ones", "zeroes")]
        lits = [f"(0x{a}, {b})" for a, b in lits]
        armtext = "[\n" + ",\n".join("      " + ", ".join(arms[i:i + 4]) for i in range(0, len(arms), 4)) + "]"
        rows.append(f"  {{ vec := \"{vec}\", line := {t[:m.start()].count(chr(10)) + 1}, size := {int(s) // 8}, width := {w},\n"
                    f"    halfs := {args(halfs)}, interleave := {args(inter)},\n"
                    f"    arms := {armtext},\n    ones := {lits[0]}, zeroes := {lits[1]} }}")
    assert len(rows) == t.count("impl Pattern for")
    out.append(f"/-- The pattern constructors of src/arch/{arch}/vec_patterns.rs. -/\ndef {name} : List PatternRow := [")
    out.append(",\n".join(rows) + "]\n")
open(OUT, "w").write(HEAD + "\n".join(out) + "\nend Faster\n")
