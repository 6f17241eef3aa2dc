import Verif.Model.Templates
import Verif.Model.Wrap
import Verif.Model.Archetype

/-!
Which archetype files are used: `/repo/py/redrock/archetypes.py` (`find_archetypes`, `All_archetypes`), their use in `zfind` and their record in the output header.
-/
namespace Redrock
namespace ArchFiles
open Wrap

/-- regular expression `\w` with `re.ASCII` -/
def isWord (c : Char) : Bool := c.isAlphanum || c == '_'

/-- `posixpath.expandvars`: what follows a `$` matched against `(\w+|\{[^}]*\})`: the name and the number of matched characters. -/
def varName : PyStr → Option (PyStr × Nat)
  | [] => none
  | c :: cs =>
    if isWord c then
      let n := (c :: cs).takeWhile isWord
      some (n, n.length)
    else if c = '{' ∧ '}' ∈ cs then
      let n := cs.takeWhile (fun x => x != '}')
      some (n, n.length + 2)
    else none

/-- the loop of `posixpath.expandvars`; the first argument counts the characters of a match that are still to be passed over. Inserted values are not looked at again; an undefined variable stays as it is. -/
def expandAux (env : PyDict PyStr PyStr) : Nat → PyStr → PyStr
  | _, [] => []
  | skip + 1, _ :: cs => expandAux env skip cs
  | 0, c :: cs =>
    if c = '$' then
      match varName cs with
      | none => c :: expandAux env 0 cs
      | some (name, len) =>
        match env.get? name with
        | some v => v ++ expandAux env len cs
        | none => c :: (cs.take len ++ expandAux env len cs)
    else c :: expandAux env 0 cs

/-- python `os.path.expandvars` -/
def expandvars (env : PyDict PyStr PyStr) (s : PyStr) : PyStr := expandAux env 0 s

/-- The file system and the environment as `find_archetypes` sees them. `globArch d` are the paths matched by `glob(os.path.join(d, 'rrarchetype-*.fits'))`, in any order. -/
structure Tree where
  isFile : PyStr → Bool
  pathExists : PyStr → Bool
  globArch : PyStr → List PyStr
  env : PyDict PyStr PyStr

/-- archetypes.py:445-483  `find_archetypes(archetypes_dir)`. `codeDir` is `<redrock_code>/archetypes`. `le` is the order of `sorted`. -/
def findArchetypes (le : PyStr → PyStr → Bool) (t : Tree) (codeDir : PyStr) (arg : Option PyStr) : Py (List PyStr) :=
  match arg with
  | none =>
    match t.env.get? "RR_ARCHETYPE_DIR".toList with
    | some d => .ok (pySort le (t.globArch d))
    | none => if t.pathExists codeDir then .ok (pySort le (t.globArch codeDir)) else .error .osError
  | some d =>
    if t.isFile d then .ok [d]
    else
      let x := expandvars t.env d
      .ok (pySort le ((t.globArch x).map (pyReplace x d)))

/-- What `Archetype(filename)` keeps of a file: the type (`RRTYPE` stripped), the version, and the rest. -/
structure Arch (V : Type) where
  filename : PyStr
  rrtype : PyStr
  version : PyStr
  data : V

/-- archetypes.py:36-48  `Archetype(f)`: opens `os.path.expandvars(f)`. `read p` is `(RRTYPE, VERSION, rest)` of the file `p`, an error if there is no such file. -/
def openArch {V : Type} (env : PyDict PyStr PyStr) (read : PyStr → Py (PyStr × PyStr × V)) (f : PyStr) : Py (Arch V) := do
  let r ← read (expandvars env f)
  return ⟨f, pyStrip r.1, r.2.1, r.2.2⟩

/-- archetypes.py:418-424  the dictionary by type. -/
def archDict {V : Type} (as : List (Arch V)) : PyDict PyStr (Arch V) := as.foldl (fun d a => d.set a.rrtype a) []

/-- archetypes.py:411-426  `All_archetypes(archetypes_dir=arg).archetypes`. -/
def allArchetypes {V : Type} (le : PyStr → PyStr → Bool) (t : Tree) (codeDir : PyStr) (read : PyStr → Py (PyStr × PyStr × V)) (arg : Option PyStr) : Py (PyDict PyStr (Arch V)) := do
  let files ← findArchetypes le t codeDir arg
  let as ← files.mapM (openArch t.env read)
  return archDict as

/-- zfind.py:338-344  the archetypes for a template of type `rrtype`; `archetypes` is `None` without `--archetypes`. An empty dictionary counts as none. -/
def archetypeFor {V : Type} (archetypes : Option (PyDict PyStr (Arch V))) (rrtype : PyStr) : Option (Arch V) :=
  match archetypes with
  | none => none
  | some d => d.get? rrtype

/-- desi.py:68-72  the keywords `ARCNAMnn`, `ARCVERnn`, `ARCFILnn` (`archetypes.values()` in order). -/
def writeArchKeys {V : Type} (hdr : Header) (archetypes : PyDict PyStr (Arch V)) : Header :=
  (archetypes.zipIdx).foldl (fun h ai => (((h.set (hkey "ARCNAM" ai.2) ai.1.2.rrtype).set (hkey "ARCVER" ai.2) ai.1.2.version).set (hkey "ARCFIL" ai.2) (basename ai.1.2.filename))) hdr

/-- desi.py:877-901  the checks of `rrdesi` on the path given with `--archetypes`, on rank 0; `isDir`, `nonEmpty` and `readable` are the answers of the operating system for the literal path. `SystemExit` is `osError` here. For a
file a message is printed with the second part of the name between dashes: `IndexError` if there is none. -/
def rrdesiArchCheck (t : Tree) (isDir nonEmpty readable : PyStr → Bool) (path : PyStr) : Py Unit :=
  if (t.pathExists path && readable path) = false then .error .osError
  else if (isDir path && !(nonEmpty path)) = true then .error .osError
  else if t.isFile path then (if 2 ≤ (pySplit ['-'] (basename path)).length then .ok () else .error .indexError)
  else .ok ()

end ArchFiles
end Redrock
