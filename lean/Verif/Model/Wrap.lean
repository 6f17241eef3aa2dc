import Verif.Model.Work
import Verif.Model.Fitz
import Verif.Model.Mpi
import Verif.Model.Strings

/-!
Model of `/repo/bin/wrap-redrock`: which spectra files are found, how they are shared between nodes, what is run for them, and the batch script. Paths are strings; a file system is what exists
(`PyStr → Bool`) or a dictionary of contents.
-/
namespace Redrock
namespace Wrap

section Partition
variable {K : Type} [Field K] [LinearOrder K]

/-- wrap-redrock:37-40  loop body: `j = np.argmin(sumweights)`, append, add. -/
def wpStep (w : Nat → K) (s : List (List Nat) × List K) (i : Nat) : Py (List (List Nat) × List K) := do
  let j ← npArgmin s.2
  return (s.1.modify j (fun l => l ++ [i]), s.2.modify j (fun x => x + w i))

/-- wrap-redrock:15-42  `weighted_partition(weights, n)`; `order` is `np.argsort(-weights)` (not stable: any order that sorts is possible). -/
def weightedPartition (order : List Nat) (w : Nat → K) (n : Nat) : Py (List (List Nat) × List K) :=
  order.foldlM (wpStep w) (List.replicate n [], List.replicate n 0)

end Partition

/-! ### file names -/

/-- python `s.replace(old, new)`. -/
def pyReplace (old new s : PyStr) : PyStr :=
  if old = [] then s.flatMap (fun c => new ++ [c]) ++ new else List.intercalate new (pySplit old s)

/-- python `os.path.split(p)`: up to and including the last `/` (without trailing slashes unless there is nothing else), and the rest. -/
def pathSplit (p : PyStr) : PyStr × PyStr :=
  let tail := basename p
  let head := p.take (p.length - tail.length)
  if head.all (· == '/') then (head, tail) else ((head.reverse.dropWhile (· == '/')).reverse, tail)

/-- wrap-redrock:67-76  loop body of `spectra2outfiles`. -/
def outfile (inprefix outprefix : PyStr) (ext outdir : Option PyStr) (specfile : PyStr) : PyStr :=
  let dn := pathSplit specfile
  let o := pyReplace inprefix outprefix dn.2
  let o := match ext with
    | some e => pyReplace ".fits".toList (['.'] ++ e) o
    | none => o
  match outdir with
  | none => pathJoin dn.1 o
  | some d => pathJoin d o

/-- wrap-redrock:44-78  `spectra2outfiles`. -/
def spectra2outfiles (specfiles : List PyStr) (inprefix outprefix : PyStr) (ext outdir : Option PyStr) : List PyStr :=
  specfiles.map (outfile inprefix outprefix ext outdir)

/-! ### finding the files -/

/-- A directory: the files and the subdirectories. (Symbolic links that lead back up are not modelled.) -/
inductive Tree where
  | node (files : List PyStr) (subs : List (PyStr × Tree))

mutual
/-- wrap-redrock:103-114  `os.walk(reduxdir, followlinks=True, topdown=True)`: the files below `path` with their paths; in a directory whose `normpath` is `avoiddir` all `dirnames` are removed, so that
`os.walk` does not go into its subdirectories. `norm` is `os.path.normpath`, `avoid` is `avoiddir` after `normpath`. -/
def walk (norm : PyStr → PyStr) (avoid : Option PyStr) (keep : PyStr → Bool) (path : PyStr) : Tree → List PyStr
  | .node files subs => ((files.filter keep).map (pathJoin path)) ++ (if some (norm path) = avoid then [] else walkSubs norm avoid keep path subs)
/-- the subdirectories, in turn -/
def walkSubs (norm : PyStr → PyStr) (avoid : Option PyStr) (keep : PyStr → Bool) (path : PyStr) : List (PyStr × Tree) → List PyStr
  | [] => []
  | (name, t) :: rest => walk norm avoid keep (pathJoin path name) t ++ walkSubs norm avoid keep path rest
end

/-- wrap-redrock:113  `filename.startswith(prefix) and filename.endswith('.fits')`. -/
def isSpecName (pre filename : PyStr) : Bool := pre.isPrefixOf filename && ".fits".toList.isSuffixOf filename

/-- wrap-redrock:121-130  the files of which at least one output is missing. `ex` is `os.path.exists`. -/
def needed (ex : PyStr → Bool) (outdir : Option PyStr) (pre : PyStr) (specfiles : List PyStr) : List PyStr :=
  specfiles.filter (fun s => !(ex (outfile pre "redrock".toList none outdir s) && ex (outfile pre "rrdetails".toList (some "h5".toList) outdir s)))

/-- wrap-redrock:80-130  `find_specfiles`. -/
def findSpecfiles (norm : PyStr → PyStr) (ex : PyStr → Bool) (reduxdir : PyStr) (tree : Tree) (outdir : Option PyStr) (pre : PyStr) (avoiddir : Option PyStr) : Py (List PyStr) :=
  let specfiles := walk norm (avoiddir.map norm) (isSpecName pre) reduxdir tree
  if specfiles = [] then .error .osError else .ok (needed ex outdir pre specfiles)

/-! ### groups -/

/-- `--datatype` -/
inductive DataType where
  | desi
  | boss
  deriving DecidableEq

section Groups
variable {K : Type} [Field K] [LinearOrder K] [FloorRing K]

/-- wrap-redrock:155-158  the numbers of targets that one rank counts: those of its slice of the files. -/
def countSlice (ntargetsOf : PyStr → Nat) (specfiles : List PyStr) (slice : List Nat) : Py (List Nat) :=
  slice.mapM (fun j => do
    let f ← (match specfiles[j]? with | some f => .ok f | none => .error .indexError : Py PyStr)
    return ntargetsOf f)

/-- wrap-redrock:153-164  `pixgroups`, the counts of each rank, `gather`, `concatenate`, `bcast`. `size` is 1 without MPI. -/
def countTargets (ntargetsOf : PyStr → Nat) (specfiles : List PyStr) (size : Nat) : Py (List Nat) := do
  let pixgroups ← arraySplit (List.range specfiles.length) size
  let counts ← pixgroups.mapM (countSlice ntargetsOf specfiles)
  return counts.flatten

/-- wrap-redrock:166  `30 + 0.4*ntargets` -/
def runtime (nt : Nat) : K := 30 + 2 / 5 * (nt : K)

/-- wrap-redrock:168-172  the number of nodes. -/
def numNodes (size : Option Nat) (maxnodes : Int) (total : K) : Int :=
  match size with
  | some s => s
  | none => min maxnodes ⌈total / (25 * 60)⌉

/-- wrap-redrock:132-176  `group_specfiles` (the groups). `size` is `none` without MPI. `argsort` is `np.argsort` of the negative runtimes. -/
def groupSpecfiles (argsort : List K → List Nat) (ntargetsOf : PyStr → Nat) (specfiles : List PyStr) (maxnodes : Int) (size : Option Nat) : Py (List (List Nat)) := do
  let nt ← countTargets ntargetsOf specfiles (size.getD 1)
  let runtimes : List K := nt.map runtime
  let numnodes := numNodes size maxnodes runtimes.sum
  -- `np.zeros(n)` with a negative n raises ValueError
  if numnodes < 0 then throw .valueError
  let r ← weightedPartition (argsort runtimes) (fun i => (runtimes[i]?).getD 0) numnodes.toNat
  return r.1

/-- wrap-redrock:190-224 `plan` (without the printing): the groups. The empty lists if there is nothing to do. -/
def planGroups (argsort : List K → List Nat) (ntargetsOf : PyStr → Nat) (dt : DataType) (specfiles : List PyStr) (maxnodes : Int) (size : Option Nat) : Py (List (List Nat)) :=
  if specfiles = [] then .ok []
  else match dt with
    | .desi => groupSpecfiles argsort ntargetsOf specfiles maxnodes size
    | .boss => if maxnodes ≤ 0 then .error .valueError else arraySplit (List.range specfiles.length) maxnodes.toNat

/-- wrap-redrock:288-311  `run_redrock` up to the assertions: what rank `r` is given to process. -/
def runGroups (argsort : List K → List Nat) (ntargetsOf : PyStr → Nat) (dt : DataType) (specfiles : List PyStr) (maxnodes : Int) (size : Option Nat) : Py (List (List Nat)) := do
  let sz := size.getD 1
  let groups ← planGroups argsort ntargetsOf dt specfiles (min maxnodes sz) size
  if groups.length ≠ sz then throw .assertionError
  if groups.flatten.length ≠ specfiles.length then throw .assertionError
  return groups

end Groups

/-! ### running -/

/-- python `s.split()`: the pieces between whitespace, without empty ones. `acc` is the current piece. -/
def splitWsAux : PyStr → PyStr → List PyStr
  | acc, [] => if acc = [] then [] else [acc]
  | acc, c :: cs => if pyIsSpace c then (if acc = [] then splitWsAux [] cs else acc :: splitWsAux [] cs) else splitWsAux (acc ++ [c]) cs

/-- python `s.split()`. -/
def splitWs (s : PyStr) : List PyStr := splitWsAux [] s

/-- `str(n)`, `'{}'.format(n)` for an integer that is not negative. -/
def dec (n : Nat) : PyStr := Nat.toDigits 10 n

/-- wrap-redrock:321-335  the command, before `cmd.split()`. -/
def command (dt : DataType) (specfile rrfile details : PyStr) (nminima : Nat) (mp : Option Nat) (archetypes : Option PyStr) : PyStr :=
  (match dt with
   | .desi => "rrdesi ".toList ++ specfile
   | .boss => "rrboss --spplate ".toList ++ specfile)
  ++ " --nminima ".toList ++ dec nminima ++ " --outfile ".toList ++ rrfile ++ " --details ".toList ++ details
  ++ (match mp with | some m => " --mp ".toList ++ dec m | none => [])
  ++ (match archetypes with | some a => " --archetypes ".toList ++ a | none => [])

section Run

/-- How one `subprocess.call` ended: the exit code, or an exception before or in it (`backup_logs`, `open`, no such program). -/
inductive Outcome where
  | exit (code : Int)
  | raised
  deriving DecidableEq

/-- One `subprocess.call` (or the attempt) of a run: the spectra file, number of the try, outcome. -/
structure Call where
  file : PyStr
  retry : Nat
  outcome : Outcome
  deriving DecidableEq

/-- wrap-redrock:344-371  the tries for file `f`: `left` of them are left, `k` is the number of this one; none after exit code 0, none after an exception. `outcome k` is how the k-th ends. -/
def tries (f : PyStr) (outcome : Nat → Outcome) : Nat → Nat → List Call
  | 0, _ => []
  | left + 1, k =>
    ⟨f, k, outcome k⟩ :: (match outcome k with
      | .exit c => if c = 0 then [] else tries f outcome left (k + 1)
      | .raised => [])

/-- wrap-redrock:317-371  the calls of one rank: its files in turn, each tried at most twice; errors are printed and the next file follows. -/
def runRank (outcome : PyStr → Nat → Outcome) (specfiles : List PyStr) (group : List Nat) : List Call :=
  group.flatMap (fun i => match specfiles[i]? with
    | some f => tries f (outcome f) 2 0
    | none => [])

/-- wrap-redrock:313  `int(os.path.basename(os.path.dirname(x)))` for every file: `ValueError` unless the directory that contains the file has an integer as its name. `isInt` says which strings `int` takes. -/
def pixelsOk (isInt : PyStr → Bool) (specfiles : List PyStr) : Py Unit :=
  if specfiles.all (fun x => isInt (basename (pathSplit x).1)) then .ok () else .error .valueError

/-- wrap-redrock:288-371  `run_redrock`: the calls of every rank. `all` are the matching files that `os.walk` finds. -/
def wrapRun {K : Type} [Field K] [LinearOrder K] [FloorRing K] (argsort : List K → List Nat) (ntargetsOf : PyStr → Nat) (isInt : PyStr → Bool) (dt : DataType) (all : List PyStr)
    (ex : PyStr → Bool) (outdir : Option PyStr) (pre : PyStr) (maxnodes : Int) (size : Option Nat) (outcome : PyStr → Nat → Outcome) : Py (List (List Call)) := do
  if all = [] then throw .osError
  let specfiles := needed ex outdir pre all
  let groups ← runGroups argsort ntargetsOf dt specfiles maxnodes size
  pixelsOk isInt specfiles
  return groups.map (runRank outcome specfiles)

end Run

/-! ### logs -/

/-- wrap-redrock:328  `rrfiles[i].replace('.fits', '.log')`: of the whole path. -/
def logfileOf (rrfile : PyStr) : PyStr := pyReplace ".fits".toList ".log".toList rrfile

section Logs
variable {C : Type}

/-- wrap-redrock:178-188  `backup_logs(logfile)` on the files of the directory. Simplification: the characters `*`, `?`, `[` in `logfile` itself, which `glob` interprets, do not occur. `os.rename` raises if
`logfile` does not exist. -/
def backupLogs (files : PyDict PyStr C) (logfile : PyStr) : Py (PyDict PyStr C × PyStr) :=
  let logfiles := (PyDict.keys files).filter (fun f => (logfile ++ ['.']).isPrefixOf f)
  let newlog := logfile ++ ['.'] ++ dec logfiles.length
  if newlog ∈ PyDict.keys files then .error .assertionError
  else match PyDict.get? files logfile with
    | none => .error .osError
    | some c => .ok ((files.filter (fun e => e.1 ≠ logfile)) ++ [(newlog, c)], newlog)

/-- wrap-redrock:348-353  one try, as far as logs go: back up an existing log, then write a new one with content `c`. -/
def logTry (logfile : PyStr) (files : PyDict PyStr C) (c : C) : Py (PyDict PyStr C) := do
  let files ← (if logfile ∈ PyDict.keys files then do
      let r ← backupLogs files logfile
      pure r.1
    else pure files)
  return PyDict.set files logfile c

end Logs

/-! ### the batch script -/

/-- wrap-redrock:251-253  hours, minutes, seconds of the job time. -/
def hms (jobtime : Int) : Int × Int × Int :=
  let jobhours := jobtime / 3600
  let jobminutes := (jobtime - jobhours * 3600) / 60
  (jobhours, jobminutes, jobtime - jobhours * 3600 - jobminutes * 60)

/-- The options of `wrap-redrock` that matter to what is run. -/
structure Opts where
  reduxdir : PyStr
  outdir : Option PyStr
  datatype : DataType
  prefixOpt : Option PyStr
  nminima : Nat
  archetypes : Option PyStr
  mp : Option Nat
  deriving DecidableEq

/-- wrap-redrock:280-283  the options of `wrap-redrock` in the script that `--plan` prints: `--mp`, `--reduxdir`, `--outdir`; the others have their defaults there. `mp` is the number filled in at 242-243. -/
def scriptOpts (abspath : PyStr → PyStr) (o : Opts) (mp : Nat) : Opts :=
  { reduxdir := o.reduxdir, outdir := o.outdir.map abspath, datatype := .desi, prefixOpt := none, nminima := 3, archetypes := none, mp := some mp }

section Plan
variable {K : Type} [Field K] [LinearOrder K] [FloorRing K]

/-- `grouptimes`: a numpy array (DESI, from `weighted_partition`) or a python list of integers (BOSS). -/
inductive GroupTimes (K : Type) where
  | array (ts : List K)
  | list (ts : List Int)

/-- the numbers -/
def GroupTimes.vals : GroupTimes K → List K
  | .array ts => ts
  | .list ts => ts.map (fun n => ((n : Int) : K))

/-- wrap-redrock:246-248  `grouptimes *= scale` with a python float: element by element for an array, `TypeError` for a list. -/
def GroupTimes.scale (s : K) : GroupTimes K → Py (GroupTimes K)
  | .array ts => .ok (.array (ts.map (· * s)))
  | .list _ => .error .typeError

/-- wrap-redrock:227-253  queue ('debug' is `true`) and job time. `plantime` is the time the plan took. `np.max` of nothing raises. -/
def planJob (plantime : K) (gt : GroupTimes K) (maxproc : Nat) (mp : Option Nat) : Py (Bool × Int) := do
  let m ← npMax gt.vals
  let debug := decide (plantime + m ≤ 30 * 60)
  let mp := mp.getD (maxproc / 2)
  let gt ← (if mp < maxproc / 2 then (if mp = 0 then throw .zeroDivision else gt.scale (((maxproc / 2 : Nat) : K) / (mp : K))) else pure gt)
  let m ← npMax gt.vals
  -- `int(x)` for x >= 0
  return (debug, ⌊23 / 20 * (plantime + m)⌋)

end Plan

end Wrap
end Redrock
