import Verif.Model.Mpi

/-!
Queue protocol between the parent and the multiprocessing workers: `/repo/py/redrock/zscan.py:862-908, 1049-1094`
and `/repo/py/redrock/zfind.py:81-101, 363-398` (there with no progress queue: all `tasks` 0).

Simplifications: `multiprocessing.Queue` is reliable, `put` never blocks; workers and parent interleave in any
order; the time a message takes is covered by the arbitrary order of steps.
-/
namespace Redrock

/-- A worker process. -/
inductive WStat where
  | running
  /-- put its result on `qout` and exited -/
  | put
  /-- raised: the exception is printed and the process exits (zscan.py:902-907) -/
  | failed
  deriving DecidableEq

/-- Where the parent is. -/
inductive Phase where
  /-- `while (tot < ntarget): cnt = qprog.get()` (zscan.py:1072-1074) -/
  | progress
  /-- `for _ in range(len(procs)): res = qout.get()` (zscan.py:1085-1086) then `p.join()` -/
  | collect
  /-- the function went on -/
  | returned
  deriving DecidableEq

/-- `m` started workers; worker `i` has `tasks i` targets and raises after `k` ticks if `fail i = some k`; `ntarget` is
the parent's count of targets. -/
structure MpConf where
  m : Nat
  tasks : Nat → Nat
  fail : Nat → Option Nat
  ntarget : Nat

structure MpState where
  ticked : Nat → Nat
  stat : Nat → WStat
  qprog : Nat
  qout : List Nat
  phase : Phase
  tot : Nat
  got : Nat

def MpState.init : MpState :=
  { ticked := fun _ => 0, stat := fun _ => .running, qprog := 0, qout := [], phase := .progress, tot := 0, got := 0 }

/-- One step of the parent or of a worker. -/
inductive MpStep (c : MpConf) : MpState → MpState → Prop where
  /-- zscan.py:862-867, 886-887  one `progress.put(1)` per target, all-masked ones included -/
  | tick (s : MpState) (i : Nat) (hi : i < c.m) (hr : s.stat i = .running) (ht : s.ticked i < c.tasks i)
      (hf : c.fail i ≠ some (s.ticked i)) :
      MpStep c s { s with ticked := upd s.ticked i (s.ticked i + 1), qprog := s.qprog + 1 }
  /-- zscan.py:901 -/
  | put (s : MpState) (i : Nat) (hi : i < c.m) (hr : s.stat i = .running) (ht : s.ticked i = c.tasks i)
      (hf : c.fail i ≠ some (s.ticked i)) :
      MpStep c s { s with stat := upd s.stat i .put, qout := s.qout ++ [i] }
  /-- zscan.py:902-907 -/
  | crash (s : MpState) (i : Nat) (hi : i < c.m) (hr : s.stat i = .running) (hf : c.fail i = some (s.ticked i)) :
      MpStep c s { s with stat := upd s.stat i .failed }
  /-- zscan.py:1072-1074 -/
  | readProgress (s : MpState) (hp : s.phase = .progress) (ht : s.tot < c.ntarget) (hq : 0 < s.qprog) :
      MpStep c s { s with tot := s.tot + 1, qprog := s.qprog - 1 }
  | endProgress (s : MpState) (hp : s.phase = .progress) (ht : ¬ s.tot < c.ntarget) :
      MpStep c s { s with phase := .collect }
  /-- zscan.py:1085-1086 -/
  | readResult (s : MpState) (hp : s.phase = .collect) (hg : s.got < c.m) (i : Nat) (rest : List Nat)
      (hq : s.qout = i :: rest) : MpStep c s { s with got := s.got + 1, qout := rest }
  /-- zscan.py:1093-1094  `p.join()` for every worker returns once they have exited -/
  | join (s : MpState) (hp : s.phase = .collect) (hg : ¬ s.got < c.m) (hj : ∀ i, i < c.m → s.stat i ≠ .running) :
      MpStep c s { s with phase := .returned }

inductive MpRun (c : MpConf) : Nat → MpState → MpState → Prop where
  | refl (s : MpState) : MpRun c 0 s s
  | tail {k : Nat} {s t u : MpState} : MpRun c k s t → MpStep c t u → MpRun c (k + 1) s u

end Redrock
