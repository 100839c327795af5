#!/usr/bin/env python3
"""Extract the arguments of the macros which write out tuples and types.

Reads src/zip.rs, src/stride.rs, src/into_iters.rs and the transmute.rs files (default below
/repo) as text and writes lean/Verif/MacroTables.lean.
"""
import re, sys, os

REPO = sys.argv[1] if len(sys.argv) > 1 else "/repo"
OUT = os.path.join(os.path.dirname(os.path.abspath(__file__)), "..", "lean", "Verif", "MacroTables.lean")

def read(f): return open(os.path.join(REPO, "src", f)).read()
def line(t, m): return t.count("\n", 0, m.start()) + 1
def strs(l): return "[" + ", ".join(f'"{x}"' for x in l) + "]"
def nums(l): return "[" + ", ".join(map(str, l)) + "]"

out = ['''/-
The arguments of macros which write out tuples and types. Written by `tools/gen_macros.py`.
-/
namespace Faster

/-- An invocation of `impl_iter_zip!` and its line: the type parameters and the fields other than
the first. -/
structure ZipArm where
  line : Nat
  types : List String
  fields : List Nat
deriving DecidableEq, Repr

/-- A `PackedStride` literal of `stride_two` … `stride_nine`: `pos`, `base`, `stride` and the
field of `default`. -/
structure StrideLit where
  pos : Nat
  base : Nat
  stride : Nat
  dflt : Nat
deriving DecidableEq, Repr

/-- An invocation of `impl_packed_transmute!`: the file, the types which get an implementation and
the ten result types in the order of the macro. -/
structure TransmuteArm where
  file : String
  line : Nat
  types : List String
  results : List String
deriving DecidableEq, Repr

''']

z = read("zip.rs")
arms = []
for m in re.finditer(r"^impl_iter_zip!\((.*?)\);", z, re.S | re.M):
    groups = re.findall(r"\(([^()]*)\)", m.group(1))
    assert len(groups) == 3, m.group(0)
    ts, nm, ns = [[x.strip() for x in g.split(",")] for g in groups]
    assert re.sub(r"\s", "", m.group(1)) == ",".join("(" + ",".join(g) + ")" for g in (ts, nm, ns))
    arms.append(f"  ⟨{line(z, m)}, {strs(ts)}, {nums(int(n) for n in ns)}⟩")
assert len(arms) == z.count("impl_iter_zip!(")
out.append("/-- `impl_iter_zip!` (src/zip.rs:373-408). -/\ndef zipArms : List ZipArm := [\n" + ",\n".join(arms) + "]\n\n")

m = re.search(r"macro_rules! tuplify \{\n(.*?)\n\}\n", z, re.S)
arms = []
for l in m.group(1).split("\n"):
    a = re.fullmatch(r"    \((\d+), \$i:expr\) => \{ \((\$i(?:, \$i)*)\) \};", l)
    arms.append(f"({a.group(1)}, {len(a.group(2).split(', '))})")
out.append("/-- `tuplify!` (src/zip.rs:25-38): the number of each arm and the number of copies. -/\n"
           "def tuplifyArms : List (Nat × Nat) :=\n  [" + ", ".join(arms) + "]\n\n")

s = read("stride.rs")
rows = []
total = 0
for m in re.finditer(r"    fn (stride_\w+)\(&self, default: \(([^()]*)\)\) -> \(([^()]*)\) \{\n        \(\n(.*?)\n        \)\n    \}\n", s, re.S):
    name, d, r, body = m.groups()
    lits = re.findall(r"PackedStride \{\s*iter: self,\s*pos: (\d+),\s*base: (\d+),\s*stride: (\d+),\s*default: default\.(\d+)\s*\}", body)
    left = re.sub(r"PackedStride \{\s*iter: self,\s*pos: (\d+),\s*base: (\d+),\s*stride: (\d+),\s*default: default\.(\d+)\s*\}", "X", body)
    assert re.sub(r"\s", "", left) == ",".join("X" * len(lits))
    assert len(lits) == d.count("Vector") == r.count("PackedStride")
    total += len(lits)
    rows.append(f'  ("{name}", [' + ", ".join(f"⟨{a}, {b}, {c}, {e}⟩" for a, b, c, e in lits) + "])")
assert total == len(re.findall(r"default: default\.\d", s))
out.append("/-- `stride_two` … `stride_nine` (src/stride.rs:133-280). -/\n"
           "def strideLits : List (String × List StrideLit) := [\n" + ",\n".join(rows) + "]\n\n")

i = read("into_iters.rs")
m = re.search(r"^impl_array_intos!\((.*?)\);", i, re.S | re.M)
p = [x.strip() for x in m.group(1).split(",")]
out.append("/-- `impl_array_intos!` (src/into_iters.rs:118-127): element and vector types. -/\n"
           "def intoPairs : List (String × String) :=\n  [" +
           ", ".join(f'("{a}", "{b}")' for a, b in zip(p[::2], p[1::2])) + "]\n\n")

rows = []
for f in ("arch/x86/intrin/transmute.rs", "arch/unknown/intrin/transmute.rs"):
    t = read(f)
    n = 0
    for m in re.finditer(r'^impl_packed_transmute!\((.*?),\s*\.\.\.\s*(.*?),\s*"\w+", "\w+"\);', t, re.S | re.M):
        a, b = [[x.strip() for x in g.split(",")] for g in m.groups()]
        rows.append(f'  ⟨"{f}", {line(t, m)}, {strs(a)},\n    {strs(b)}⟩')
        n += 1
    assert n == t.count("impl_packed_transmute!(")
out.append("/-- `impl_packed_transmute!` (src/arch/*/intrin/transmute.rs). -/\n"
           "def transmuteArms : List TransmuteArm := [\n" + ",\n".join(rows) + "]\n\n")

t = read("intrin/transmute.rs")
m = re.search(r"\(\$\(\$t:ty,\)\* \.\.\. (.*?), \$feat", t, re.S)
params = re.findall(r"\$(\w+):ty", m.group(1))
assoc = re.findall(r"type (\w+) = \$(\w+);", t)
fns = re.findall(r"fn be_(\w+?)(?:_unchecked)?\(&self\) -> Self::(\w+) \{\s*(?:unsafe \{ )?transmute::<Self, Self::(\w+)>\(\*self\)", t)
assert len(assoc) == len(fns) == len(params) == 10
out.append("/-- The parameters of `impl_packed_transmute!` in order (src/intrin/transmute.rs:35-36). -/\n"
           f"def transmuteParams : List String :=\n  {strs(params)}\n\n"
           "/-- Its associated types (40-49) and what they are set to. -/\n"
           "def transmuteTypes : List (String × String) :=\n  [" + ", ".join(f'("{a}", "{b}")' for a, b in assoc) + "]\n\n"
           "/-- Its methods `be_…` (51-98), the associated types they return and transmute to. -/\n"
           "def transmuteFns : List (String × String × String) :=\n  [" +
           ", ".join(f'("{a}", "{b}", "{c}")' for a, b, c in fns) + "]\n\nend Faster\n")
open(OUT, "w").write("".join(out))
