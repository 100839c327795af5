import Verif.Prim
/-
The diagnostics of the `trace` feature (src/debug.rs): every fallback and every
use of an instruction reports its place, at most once per thread.
-/
namespace Faster
open Res

/-- What the reports act on: the message sets of the threads (`OUTPUT_GUARD`,
src/debug.rs:6-11; thread-local), the log file and standard output. Lines of the
log file and of standard output carry the thread they come from. -/
structure TraceState where
  guard : Nat → List String
  file : List (Nat × String)
  stdout : List (Nat × String)

/-- One `fallback!()` or `optimized!()` with the `trace` feature
(src/debug.rs:57-71): the thread, the message (which contains the place), whether
the log file can be written and whether standard output can. -/
structure Report where
  thread : Nat
  msg : String
  fileOk : Bool
  printOk : Bool

/-- `debug_append_log!` (src/debug.rs:14-29): errors are ignored. Simplified: a
line is written completely or not at all. -/
def debugAppendLog (s : TraceState) (r : Report) : TraceState :=
  if r.fileOk then { s with file := s.file ++ [(r.thread, r.msg)] } else s

/-- `debug_output_once!` (src/debug.rs:34-52). The flag tells whether it
returned; `println!` panics if standard output cannot be written, before the
message is inserted. The `RefCell` is borrowed by no one else: nothing called
while it is borrowed reports anything. -/
def debugOutputOnce (s : TraceState) (r : Report) : Bool × TraceState :=
  if (s.guard r.thread).contains r.msg then (true, s)
  else
    let s := debugAppendLog s r
    if r.printOk then
      let s := { s with stdout := s.stdout ++ [(r.thread, r.msg)] }
      (true, { s with guard := fun t =>
        if t = r.thread then r.msg :: s.guard t else s.guard t })
    else (false, s)

/-- A run: reports of all threads in the order in which they happen. Panics are
caught by the threads; the thread's set survives. -/
def traceRun (s : TraceState) (rs : List Report) : TraceState :=
  rs.foldl (fun s r => (debugOutputOnce s r).2) s

/-- Before the first report. -/
def traceStart : TraceState := { guard := fun _ => [], file := [], stdout := [] }

end Faster
