import Verif.Model.Py

/-!
The file system as seen by the writers of redrock: directory entries pointing to inodes, open handles, and the four system calls the writers use.
A content is an arbitrary value (`C`); HDF5 and FITS writers may write their bytes in any order, so an unfinished file may hold any content.
-/
namespace Redrock

/-- File system: directory (path to inode), contents of inodes, fresh fresh inode, and for every process the inode it holds open for writing. -/
structure Fs (P C : Type) where
  names : P → Option Nat
  data : Nat → C
  fresh : Nat
  handle : Nat → Option Nat

/-- What a reader sees at path `p`: nothing, or a content. -/
def Fs.read {P C : Type} (fs : Fs P C) (p : P) : Option C := (fs.names p).map fs.data

/-- System calls of one process. `unlink`: `os.remove` guarded by an existence test. `openW`: open for writing, truncating an existing file in place (h5py mode `w`, `open(..., 'wb')`).
`put c`: after this write the open file holds `c`. `rename p q`: `os.rename`, atomic. -/
inductive FsOp (P C : Type) where
  | unlink (p : P)
  | openW (p : P)
  | put (c : C)
  | rename (p q : P)

/-- Effect of one system call of process `k`. `empty` is the content of a truncated file. A rename of a missing file raises: the state does not change. -/
def Fs.step {P C : Type} [DecidableEq P] (empty : C) (fs : Fs P C) (k : Nat) : FsOp P C → Fs P C
  | .unlink p => { fs with names := fun x => if x = p then none else fs.names x }
  | .openW p => match fs.names p with
    | some i => { fs with data := fun j => if j = i then empty else fs.data j, handle := fun j => if j = k then some i else fs.handle j }
    | none => { names := fun x => if x = p then some fs.fresh else fs.names x, data := fun j => if j = fs.fresh then empty else fs.data j, fresh := fs.fresh + 1,
                handle := fun j => if j = k then some fs.fresh else fs.handle j }
  | .put c => match fs.handle k with
    | some i => { fs with data := fun j => if j = i then c else fs.data j }
    | none => fs
  | .rename p q => match fs.names p with
    | some i => { fs with names := fun x => if x = q then some i else if x = p then none else fs.names x }
    | none => fs

/-- Runs a sequence of calls `(process, call)`. -/
def Fs.run {P C : Type} [DecidableEq P] (empty : C) (fs : Fs P C) (ops : List (Nat × FsOp P C)) : Fs P C :=
  ops.foldl (fun fs o => fs.step empty o.1 o.2) fs

/-- External/desi.py lines 144-151 and 192-199 (`write_zbest`, `write_bestmodel`), external/boss.py lines 74-77 (`write_zbest`): `hx.writeto(tempfile, overwrite=True)` removes an existing
temporary file and creates it anew, writes it (through the arbitrary intermediate contents `mids`) up to the content `new`; then `os.rename(tempfile, outfile)`.
Simplified: creation of missing directories is left out. -/
def fitsWriter {P C : Type} (tmp out : P) (mids : List C) (new : C) : List (FsOp P C) :=
  [.unlink tmp, .openW tmp] ++ mids.map .put ++ [.put new, .rename tmp out]

/-- results.py lines 39-96 (`write_zscan`): if `clobber`, remove the output first; then write `filename + '.tmp'` through h5py mode `w` (truncation in place), then rename.
Simplified: creation of missing directories is left out; the computation of the content is in `Model/Details.lean`. -/
def detailsWriter {P C : Type} (clobber : Bool) (tmp out : P) (mids : List C) (new : C) : List (FsOp P C) :=
  (if clobber then [.unlink out] else []) ++ [.openW tmp] ++ mids.map .put ++ [.put new, .rename tmp out]

/-- All calls are made by process `k`. -/
def byProc {P C : Type} (k : Nat) (ops : List (FsOp P C)) : List (Nat × FsOp P C) := ops.map (fun o => (k, o))

end Redrock
