import Verif.Common.Interleave
import Mathlib.Data.List.Permutation

/-!
# The serial and the OpenMP dispatcher (model for C105)

`Runs (js ++ [host]) m m'` is what `EXEC_PIPELINES`…`WAIT_PIPELINES` does with pthreads: all jobs and the host at once, in any
interleaving.  Here the two other ways to run pipelines.
-/
namespace Verif.Dispatch

variable {M : Type*}

/-- The argument given to job `id` by the serial and by the pthreads dispatcher, as the offset in bytes from `args`:
`((char *)args) + id*sz*str`, /repo/src/util/pipelines/pipelines_serial.cc:50, pipelines_thread.cc:537. -/
def argSerial (sz str id : ℕ) : ℕ := id * sz * str

/-- The same by the OpenMP macro, `args+id*sizeof(*args)*str` where `args` is a pointer to elements of `sz` bytes,
/repo/src/util/pipelines/pipelines_exec_omp.h:90. -/
def argOmp (sz str id : ℕ) : ℕ := (id * sz * str) * sz

/-- The argument of the host, `args+str*N_PIPELINE`, pipelines_exec_omp.h:93, pipelines_exec_pth.h:65. -/
def argHost (sz str n : ℕ) : ℕ := str * n * sz

/-- `EXEC_PIPELINES` with OpenMP, /repo/src/util/pipelines/pipelines_exec_omp.h:84-93: the jobs `0 … N_PIPELINE-1` are given to the threads
of the team, each in exactly one share (`shares`, the iterations of `omp for` in the order in which each thread does them: the
standard lets the implementation choose shares and number of threads), the threads run concurrently; after the end of the
parallel region the host does its own job. -/
def OmpRuns (js : List (List (M → M))) (host : List (M → M)) (shares : List (List (Fin js.length))) (m m' : M) : Prop :=
  shares.flatten.Perm (List.finRange js.length) ∧
    ∃ m1, Runs (shares.map fun ids => (ids.map js.get).flatten) m m1 ∧ m' = runSeq host m1

/-- `serial_dispatch`, /repo/src/util/pipelines/pipelines_serial.cc:39-51 (one job after the other), and then the host. -/
def serialRun (js : List (List (M → M))) (host : List (M → M)) (m : M) : M :=
  runSeq host (js.foldl (fun m j => runSeq j m) m)

end Verif.Dispatch
