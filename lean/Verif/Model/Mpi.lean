import Verif.Model.Dict
import Mathlib.Data.List.Basic

/-!
Model of the redshift distribution and of the ring of `DistTemplate.cycle()` calls
(`/repo/py/redrock/templates.py:478-663`).
-/
namespace Redrock

section Split
variable {α : Type}

/-- numpy `array_split(xs, n)`: section sizes, `N % n` sections of `N // n + 1` then sections of
`N // n`. -/
def sectionSizes (N n : Nat) : List Nat :=
  List.replicate (N % n) (N / n + 1) ++ List.replicate (n - N % n) (N / n)

/-- consecutive sub-lists of the given sizes. -/
def splitSizes : List Nat → List α → List (List α)
  | [], _ => []
  | s :: ss, xs => xs.take s :: splitSizes ss (xs.drop s)

/-- numpy `np.array_split(xs, n)` for an integer `n`; `ValueError` if `n = 0`. -/
def arraySplit (xs : List α) (n : Nat) : Py (List (List α)) :=
  if n = 0 then .error .valueError else .ok (splitSizes (sectionSizes xs.length n) xs)

end Split

section Ring
variable {Z : Type}

/-- templates.py:478-512  `DistTemplatePiece`: index of the rank that made it, and its redshifts. The rebinned
`data` is a function of the redshifts and is left out. -/
structure Piece (Z : Type) where
  index : Nat
  redshifts : List Z
  deriving DecidableEq

/-- templates.py:569-573, 598 (and rebin.py:488-493)  the piece made by `DistTemplate.__init__` on one rank when not
in GPU mode. `rebin_template` takes `myz.max()`, which raises `ValueError` on an empty slice. -/
def DistTemplate.initPiece (redshifts : List Z) (commSize rank : Nat) : Py (Piece Z) := do
  let pieces ← arraySplit redshifts commSize
  match pieces[rank]? with
  | none => throw .indexError
  | some myz => if myz.isEmpty then throw .valueError else return { index := rank, redshifts := myz }

/-- templates.py:558-568  GPU mode: a GPU rank holds all redshifts, a CPU-only rank an empty piece. -/
def DistTemplate.initPieceGpu (redshifts : List Z) (rank : Nat) (useGpu : Bool) : Piece Z :=
  { index := rank, redshifts := if useGpu then redshifts else [] }

/-- templates.py:633-635 -/
def toProc (nproc rank : Nat) : Nat := if rank + 1 ≥ nproc then 0 else rank + 1

/-- templates.py:637-639 -/
def fromProc (nproc rank : Nat) : Nat := if rank < 1 then nproc - 1 else rank - 1

/-- Where a rank is in the loop `while not done: use t.local; done = t.cycle()` (zscan.py:1005-1031,
templates.py:643-663). -/
inductive Pc (Z : Type) where
  /-- about to process the local piece and then call `cycle()` -/
  | ready
  /-- in `cycle()`, after `isend`, before `recv` returns -/
  | sent
  /-- in `cycle()`, after `recv`, before `req.wait()` returns -/
  | got (incoming : Piece Z)
  /-- `cycle()` returned True -/
  | finished

/-- State of all ranks and of the (reliable, FIFO per sender-receiver pair) MPI channels. `calls` and `log` are
observations: completed `cycle()` calls and the pieces processed so far. -/
structure Net (Z : Type) where
  piece : Nat → Piece Z
  pc : Nat → Pc Z
  chan : Nat → Nat → List (Piece Z)
  calls : Nat → Nat
  log : Nat → List (Piece Z)

/-- Point update of a function. -/
def upd {β : Type} (f : Nat → β) (r : Nat) (v : β) : Nat → β := fun x => if x = r then v else f x

/-- All ranks ready with their own piece, nothing in flight. -/
def Net.init (p : Nat → Piece Z) : Net Z :=
  { piece := p, pc := fun _ => .ready, chan := fun _ _ => [], calls := fun _ => 0, log := fun _ => [] }

/-- zscan.py:1005-1018 then templates.py:643  process the local piece, then `isend` it to `to_proc`. -/
def Net.isend (n : Nat) (s : Net Z) (r : Nat) : Net Z :=
  { s with
    pc := upd s.pc r .sent
    chan := fun a b => if a = r ∧ b = toProc n r then s.chan a b ++ [s.piece r] else s.chan a b
    log := upd s.log r (s.log r ++ [s.piece r]) }

/-- templates.py:647  `recv(source=from_proc)` takes the oldest message of that channel. -/
def Net.recv (n : Nat) (s : Net Z) (r : Nat) (p : Piece Z) (rest : List (Piece Z)) : Net Z :=
  { s with
    pc := upd s.pc r (.got p)
    chan := fun a b => if a = fromProc n r ∧ b = r then rest else s.chan a b }

/-- templates.py:651-663  `req.wait()` returns, the local piece is replaced, and `cycle()` returns
`piece.index == rank`. -/
def Net.wait (s : Net Z) (r : Nat) (p : Piece Z) : Net Z :=
  { s with
    piece := upd s.piece r p
    pc := upd s.pc r (if p.index = r then .finished else .ready)
    calls := upd s.calls r (s.calls r + 1) }

/-- One step of one of `n` ranks. `strict` restricts `wait` to the worst case allowed by MPI (rendezvous:
the send completes only once the receiver has taken all our messages); without it `wait` may return
at any time (buffered sends). -/
inductive Net.Step (n : Nat) (strict : Bool) : Net Z → Net Z → Prop where
  | isend (s : Net Z) (r : Nat) (hr : r < n) (h : s.pc r = .ready) :
      Net.Step n strict s (s.isend n r)
  | recv (s : Net Z) (r : Nat) (hr : r < n) (h : s.pc r = .sent) (p : Piece Z) (rest : List (Piece Z))
      (hc : s.chan (fromProc n r) r = p :: rest) : Net.Step n strict s (s.recv n r p rest)
  | wait (s : Net Z) (r : Nat) (hr : r < n) (p : Piece Z) (h : s.pc r = .got p)
      (hs : strict = true → s.chan r (toProc n r) = []) : Net.Step n strict s (s.wait r p)

/-- `k` steps in any order of the ranks. -/
inductive Net.Run (n : Nat) (strict : Bool) : Nat → Net Z → Net Z → Prop where
  | refl (s : Net Z) : Net.Run n strict 0 s s
  | tail {k : Nat} {s t u : Net Z} : Net.Run n strict k s t → Net.Step n strict t u →
      Net.Run n strict (k + 1) s u

end Ring
end Redrock
