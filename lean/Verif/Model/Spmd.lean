import Verif.Model.Mpi

/-!
Model of the communication of an MPI run of `rrdesi` (`/repo/py/redrock/external/desi.py:672-1257` and the functions it calls): for every rank the sequence of its MPI calls and of the pieces of
local work between them, and how the ranks run together. What the messages contain is not modelled here (see C05, C06 and C09 for that).
-/
namespace Redrock.Spmd
open Redrock

/-- Source file of a call. -/
inductive Src where
  | desi | targets | templates | zscan | zfind | utils
  deriving DecidableEq

/-- A place in the source: file, line, and the values of the enclosing loops. -/
structure Site where
  src : Src
  line : Nat
  idx : List Nat := []
  deriving DecidableEq

/-- What a rank does when a piece of work raises an exception: `comm.Abort()` ends all ranks; otherwise the exception leaves `rrdesi` on that rank only. -/
inductive OnFail where
  | abort | die
  deriving DecidableEq

/-- Kinds of collective calls (`barrier` includes `elapsed(…, comm=comm)`, utils.py:86-87). -/
inductive Coll where
  | barrier | bcast | gather | allgather | split
  deriving DecidableEq

/-- One step of a rank. Communicators are the ranks below `n`. -/
inductive Op where
  /-- local work without MPI -/
  | work (h : OnFail) (s : Site)
  /-- a collective call on the communicator of the ranks `< n` -/
  | coll (n : Nat) (c : Coll) (s : Site)
  /-- `req = comm.isend(…, dst)` -/
  | isend (dst : Nat)
  /-- `req.wait()`: all messages to `dst` are on their way -/
  | wait (dst : Nat)
  /-- `comm.recv(source=src)` -/
  | recv (src : Nat)
  deriving DecidableEq

/-- A blocking `comm.send`: in the worst case it returns when the message has been received. -/
def send (dst : Nat) : List Op := [.isend dst, .wait dst]

/-- State: what every rank has still to do, the number of messages under way from rank to rank, which ranks have left with an exception, and whether `comm.Abort()` has been called. -/
structure St where
  rest : Nat → List Op
  chan : Nat → Nat → Nat
  dead : Nat → Bool
  aborted : Bool

/-- At the start. -/
def St.init (prog : Nat → List Op) : St := { rest := prog, chan := fun _ _ => 0, dead := fun _ => false, aborted := false }

/-- Effect of a call of rank `r` that is not collective on the messages under way, if the call returns. With `strict` a send completes only when all messages were received (rendezvous);
otherwise it may complete at once (buffering). -/
def chanEff (strict : Bool) (r : Nat) (ch : Nat → Nat → Nat) : Op → Option (Nat → Nat → Nat)
  | .work _ _ => some ch
  | .coll _ _ _ => none
  | .isend d => some (fun a b => if a = r ∧ b = d then ch a b + 1 else ch a b)
  | .wait d => if strict = true ∧ ch r d ≠ 0 then none else some ch
  | .recv q => if ch q r = 0 then none else some (fun a b => if a = q ∧ b = r then ch a b - 1 else ch a b)

/-- All ranks of the communicator are at the same call. -/
def allAt (s : St) (n : Nat) (op : Op) : Bool := (List.range n).all (fun q => !s.dead q && decide ((s.rest q).head? = some op))

/-- The next step of rank `r` of `size`, if it can be made. A collective call is made by all its ranks together (as a step of rank 0, which is in all communicators used). `fails r site` says whether
the work at `site` raises an exception on rank `r`. -/
def fire (size : Nat) (fails : Nat → Site → Bool) (strict : Bool) (s : St) (r : Nat) : Option St :=
  if s.aborted = true ∨ s.dead r = true ∨ size ≤ r then none
  else match s.rest r with
    | [] => none
    | .coll n c site :: _ =>
      if r = 0 ∧ 0 < n ∧ allAt s n (.coll n c site) = true then some { s with rest := fun q => if q < n then (s.rest q).tail else s.rest q } else none
    | .work h site :: k =>
      if fails r site = true then match h with
        | .abort => some { s with aborted := true }
        | .die => some { s with dead := upd s.dead r true }
      else some { s with rest := upd s.rest r k }
    | op :: k => (chanEff strict r s.chan op).map (fun ch => { s with rest := upd s.rest r k, chan := ch })

/-- `k` steps, in any order of the ranks. -/
inductive Run (size : Nat) (fails : Nat → Site → Bool) (strict : Bool) : Nat → St → St → Prop where
  | refl (s : St) : Run size fails strict 0 s s
  | step {k : Nat} {s t u : St} {r : Nat} : Run size fails strict k s t → fire size fails strict t r = some u → Run size fails strict (k + 1) s u

/-! ### the program of `rrdesi` -/

/-- One input file: whether it has rows to read, and for every band the number of rows. -/
structure FileCfg where
  rows : Bool
  bands : List Nat

/-- What the sequence of calls depends on. All ranks see the same options and the same file contents, because these are broadcast. -/
structure Cfg where
  /-- `comm.size` -/
  size : Nat
  /-- `--gpu` -/
  gpu : Bool
  /-- `--max-gpuprocs` -/
  maxGpuprocs : Option Int
  /-- `/proc/driver/nvidia/gpus/` exists on the node of this rank -/
  nvidia : Nat → Bool
  /-- `--archetypes` is given -/
  archetypes : Bool
  /-- it is a file -/
  archFile : Bool
  files : List FileCfg
  ntemplates : Nat
  /-- `len(results)` on this rank -/
  nresults : Nat → Nat
  chi2Scan : Bool
  details : Bool
  outfile : Bool
  model : Bool
  noMpiAbort : Bool

/-- desi.py:797-803  size of the communicator that does the work. -/
def Cfg.n (c : Cfg) : Nat :=
  match c.gpu, c.maxGpuprocs with
  | true, some m => if (c.size : Int) > m then m.toNat else c.size
  | _, _ => c.size

/-- desi.py:798-799  the communicator is split. -/
def Cfg.splits (c : Cfg) : Bool :=
  match c.gpu, c.maxGpuprocs with
  | true, some m => decide ((c.size : Int) > m)
  | _, _ => false

/-- desi.py:1239-1249  what happens to exceptions inside the `try` block. -/
def Cfg.inTry (c : Cfg) : OnFail := if c.noMpiAbort then .die else .abort

/-- Work of rank 0 only (`if comm_rank == 0`). -/
def onRoot (r : Nat) (ops : List Op) : List Op := if r = 0 then ops else []

/-- desi.py:597-628  broadcast of the resolution data of `ntarg` rows in batches of at most 10000: `range(0, ntarg, maxtarg_per_bcast)`. -/
def resolutionBcasts (n ntarg f b : Nat) : List Op :=
  .coll n .bcast ⟨.desi, 611, [f, b]⟩ ::
    (if ntarg ≤ 10000 then [.coll n .bcast ⟨.desi, 616, [f, b]⟩]
     else (List.range ((ntarg + 9999) / 10000)).map (fun i => .coll n .bcast ⟨.desi, 624, [f, b, i]⟩))

/-- desi.py:285-455  reading the metadata of file number `f`. -/
def fileMeta (c : Cfg) (r f : Nat) : List Op :=
  onRoot r [.work c.inTry ⟨.desi, 289, [f]⟩] ++
  [.coll c.n .bcast ⟨.desi, 338, [f]⟩, .coll c.n .bcast ⟨.desi, 339, [f]⟩, .coll c.n .bcast ⟨.desi, 340, [f]⟩, .coll c.n .bcast ⟨.desi, 341, [f]⟩, .coll c.n .bcast ⟨.desi, 342, [f]⟩,
   .coll c.n .bcast ⟨.desi, 343, [f]⟩, .work c.inTry ⟨.desi, 348, [f]⟩] ++
  onRoot r [.work c.inTry ⟨.desi, 430, [f]⟩] ++
  [.coll c.n .bcast ⟨.desi, 447, [f]⟩, .coll c.n .bcast ⟨.desi, 448, [f]⟩]

/-- desi.py:527-640  reading the data of band `b` of file `f`. -/
def bandData (c : Cfg) (r f b ntarg : Nat) : List Op :=
  onRoot r [.work c.inTry ⟨.desi, 532, [f, b]⟩] ++
  [.coll c.n .bcast ⟨.desi, 538, [f, b]⟩, .coll c.n .bcast ⟨.desi, 539, [f, b]⟩, .work c.inTry ⟨.desi, 541, [f, b]⟩] ++
  onRoot r [.work c.inTry ⟨.desi, 553, [f, b]⟩] ++
  [.coll c.n .bcast ⟨.desi, 559, [f, b]⟩, .work c.inTry ⟨.desi, 561, [f, b]⟩] ++
  onRoot r [.work c.inTry ⟨.desi, 580, [f, b]⟩] ++
  [.coll c.n .bcast ⟨.desi, 583, [f, b]⟩, .work c.inTry ⟨.desi, 585, [f, b]⟩] ++
  onRoot r [.work c.inTry ⟨.desi, 598, [f, b]⟩] ++
  resolutionBcasts c.n ntarg f b ++
  [.work c.inTry ⟨.desi, 630, [f, b]⟩]

/-- desi.py:515-647  reading the data of file `f`, if any row is kept. -/
def fileData (c : Cfg) (r f : Nat) (fc : FileCfg) : List Op :=
  if fc.rows then onRoot r [.work c.inTry ⟨.desi, 526, [f]⟩] ++ fc.bands.zipIdx.flatMap (fun nb => bandData c r f nb.2 nb.1) else []

/-- desi.py:238-662  `DistTargetsDESI.__init__`. -/
def readTargets (c : Cfg) (r : Nat) : List Op :=
  c.files.zipIdx.flatMap (fun fc => fileMeta c r fc.2) ++
  [.work c.inTry ⟨.desi, 456, []⟩] ++
  c.files.zipIdx.flatMap (fun fc => fileData c r fc.2 fc.1) ++
  [.work c.inTry ⟨.desi, 649, []⟩]

/-- templates.py:744-778  `load_dist_templates`. -/
def loadTemplates (c : Cfg) (r : Nat) : List Op :=
  [.coll c.n .barrier ⟨.templates, 744, []⟩] ++ onRoot r [.work c.inTry ⟨.templates, 748, []⟩] ++
  [.coll c.n .bcast ⟨.templates, 754, []⟩, .coll c.n .barrier ⟨.templates, 756, []⟩, .work c.inTry ⟨.templates, 759, []⟩, .coll c.n .barrier ⟨.templates, 764, []⟩] ++
  (List.range c.ntemplates).map (fun t => .work c.inTry ⟨.templates, 769, [t]⟩) ++
  [.coll c.n .barrier ⟨.templates, 776, []⟩]

/-- templates.py:643-651  one call of `cycle()`. -/
def cycleOps (n r : Nat) : List Op := [.isend (toProc n r), .recv (fromProc n r), .wait (toProc n r)]

/-- zscan.py:999-1031  the loop over the redshift slices for template `t`: with `ReDistTemplate` (GPU) one pass without communication, else `cycle()` returns True at the `n`-th call (C05). -/
def scanLoop (c : Cfg) (r t : Nat) : List Op :=
  if c.gpu then [.work c.inTry ⟨.zscan, 1008, [t]⟩]
  else (List.range c.n).flatMap (fun i => .work c.inTry ⟨.zscan, 1008, [t, i]⟩ :: cycleOps c.n r)

/-- zscan.py:957-1103  `calc_zchi2_targets`. -/
def scanTargets (c : Cfg) (r : Nat) : List Op :=
  (List.range c.ntemplates).flatMap (fun t =>
    [.coll c.n .barrier ⟨.zscan, 966, [t]⟩] ++ scanLoop c r t ++ [.work c.inTry ⟨.zscan, 1033, [t]⟩, .coll c.n .barrier ⟨.zscan, 1096, [t]⟩, .work c.inTry ⟨.zscan, 1098, [t]⟩])

/-- zfind.py:440-446  the number of batches that a rank announces to rank 0. -/
def announced (len : Nat) : Nat := if len < 5000 then 1 else (len - 1) / 5000 + 1

/-- zfind.py:442, 450-452  the number of batches that it sends: `range(0, len(results), 5000)`. -/
def sentBatches (len : Nat) : Nat := if len < 5000 then 1 else (len + 4999) / 5000

/-- zfind.py:422-452  gathering the results on rank 0. -/
def gatherResults (c : Cfg) (r : Nat) : List Op :=
  if r = 0 then (List.range' 1 (c.n - 1)).flatMap (fun q => .recv q :: List.replicate (announced (c.nresults q)) (.recv q))
  else send 0 ++ (List.replicate (sentBatches (c.nresults r)) (send 0)).flatten

/-- zfind.py:262-712  `zfind`. -/
def zfindOps (c : Cfg) (r : Nat) : List Op :=
  [.work c.inTry ⟨.zfind, 265, []⟩, .coll c.n .barrier ⟨.zfind, 288, []⟩] ++
  (if c.chi2Scan then [.work c.inTry ⟨.zfind, 292, []⟩] else scanTargets c r) ++
  [.coll c.n .barrier ⟨.zfind, 293, []⟩, .work c.inTry ⟨.zfind, 320, []⟩, .coll c.n .barrier ⟨.zfind, 327, []⟩] ++
  (List.range c.ntemplates).flatMap (fun t => [.coll c.n .barrier ⟨.zfind, 351, [t]⟩, .work c.inTry ⟨.zfind, 358, [t]⟩, .coll c.n .barrier ⟨.zfind, 401, [t]⟩]) ++
  [.coll c.n .barrier ⟨.zfind, 402, []⟩, .coll c.n .barrier ⟨.zfind, 406, []⟩, .work c.inTry ⟨.zfind, 407, []⟩] ++
  gatherResults c r ++
  [.coll c.n .barrier ⟨.zfind, 454, []⟩] ++ onRoot r [.work c.inTry ⟨.zfind, 459, []⟩] ++ [.coll c.n .barrier ⟨.zfind, 712, []⟩]

/-- desi.py:1151-1237  writing the output. -/
def writeOps (c : Cfg) (r : Nat) : List Op :=
  (if c.details then [.coll c.n .barrier ⟨.desi, 1152, []⟩] ++ onRoot r [.work c.inTry ⟨.desi, 1154, []⟩] ++ [.coll c.n .barrier ⟨.desi, 1155, []⟩] else []) ++
  (if c.outfile then [.coll c.n .barrier ⟨.desi, 1158, []⟩] ++ onRoot r [.work c.inTry ⟨.desi, 1160, []⟩] ++
    [.coll c.n .bcast ⟨.desi, 1194, []⟩, .coll c.n .barrier ⟨.desi, 1196, []⟩] else []) ++
  (if c.model then [.work c.inTry ⟨.desi, 1203, []⟩, .coll c.n .gather ⟨.desi, 1206, []⟩, .coll c.n .gather ⟨.desi, 1207, []⟩, .coll c.n .barrier ⟨.desi, 1212, []⟩] ++
    onRoot r [.work c.inTry ⟨.desi, 1215, []⟩] ++ [.coll c.n .barrier ⟨.desi, 1237, []⟩] else [])

/-- desi.py:990-1237  the `try` block. -/
def tryBlock (c : Cfg) (r : Nat) : List Op :=
  [.coll c.n .barrier ⟨.desi, 998, []⟩] ++ readTargets c r ++
  [.work c.inTry ⟨.desi, 1010, []⟩, .coll c.n .allgather ⟨.targets, 480, []⟩, .work c.inTry ⟨.desi, 1020, []⟩, .coll c.n .barrier ⟨.desi, 1066, []⟩] ++
  loadTemplates c r ++ [.coll c.n .barrier ⟨.desi, 1085, []⟩] ++ zfindOps c r ++ [.coll c.n .barrier ⟨.desi, 1091, []⟩] ++
  onRoot r [.work c.inTry ⟨.desi, 1096, []⟩] ++ [.work c.inTry ⟨.desi, 1138, []⟩] ++ writeOps c r

/-- desi.py:830-903  the checks on rank 0, which call `comm.Abort()`; line 894 (`….split('-')[1]`) is not protected. -/
def checks (c : Cfg) (r : Nat) : List Op :=
  onRoot r ([.work .abort ⟨.desi, 830, []⟩] ++
    (if c.archetypes then [.work .abort ⟨.desi, 880, []⟩] ++ (if c.archFile then [.work .die ⟨.desi, 894, []⟩] else []) else []))

/-- desi.py:905-992  archetypes, target IDs and the GPU configuration, before the `try` block; utils.py:246-257 `getGPUCountMPI`. -/
def setup (c : Cfg) (r : Nat) : List Op :=
  (if c.archetypes then [.work .die ⟨.desi, 906, []⟩] else []) ++ [.work .die ⟨.desi, 910, []⟩] ++
  (if c.gpu then
    (if c.maxGpuprocs.isNone then
      (if c.nvidia r then [.work .die ⟨.utils, 243, []⟩] else [.work .die ⟨.utils, 251, []⟩, .coll c.n .allgather ⟨.utils, 254, []⟩])
     else []) ++ [.coll c.n .allgather ⟨.desi, 965, []⟩]
   else [])

/-- desi.py:684-1257  `rrdesi` with an MPI communicator on rank `r`. Ranks that are not needed return after the split (line 806). -/
def rrdesi (c : Cfg) (r : Nat) : List Op :=
  [.coll c.size .barrier ⟨.desi, 684, []⟩, .work .die ⟨.desi, 788, []⟩] ++
  (if c.splits then [.coll c.size .split ⟨.desi, 801, []⟩] else []) ++
  (if r < c.n then checks c r ++ setup c r ++ tryBlock c r ++ [.coll c.n .barrier ⟨.desi, 1251, []⟩] else [])

end Redrock.Spmd
