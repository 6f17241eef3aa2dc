import Verif.Model.ArchFiles
import Verif.Lemmas.Strings
import Verif.Lemmas.Zfind
import Verif.Props.WrapFiles
import Verif.Props.Templates
import Verif.Props.Catalogue
import Verif.Props.Strings

/-! Property C123: which archetype files are used. -/
set_option linter.unusedSectionVars false
namespace Redrock
namespace ArchFiles
open Wrap

/-! ### strings -/

theorem split_ne_nil (sep : PyStr) (s acc : PyStr) (n : Nat) : pySplitAux sep n acc s ≠ [] := by
  induction s generalizing n acc with
  | nil => cases n <;> simp [pySplitAux]
  | cons c cs ih =>
    cases n with
    | zero =>
      rw [pySplitAux]
      split
      · simp
      · exact ih _ _
    | succ n => exact ih _ _

theorem join_split (sep : PyStr) (hsep : sep ≠ []) : ∀ (n : Nat) (s acc : PyStr), s.length ≤ n → List.intercalate sep (pySplitAux sep 0 acc s) = acc ++ s := by
  intro n
  induction n with
  | zero =>
    intro s acc h
    have : s = [] := List.length_eq_zero_iff.1 (Nat.le_zero.1 h)
    subst this
    simp [pySplitAux, List.intercalate]
  | succ n ih =>
    intro s acc h
    cases s with
    | nil => simp [pySplitAux, List.intercalate]
    | cons c cs =>
      rw [pySplitAux]
      split
      · next hp =>
        rw [List.isPrefixOf_iff_prefix] at hp
        obtain ⟨t, ht⟩ := hp
        obtain ⟨x, xs, rfl⟩ := List.exists_cons_of_ne_nil hsep
        rw [List.cons_append, List.cons.injEq] at ht
        obtain ⟨rfl, rfl⟩ := ht
        rw [pySplitAux_skip _ _ _ _ (by simp), show (x :: xs).length - 1 = xs.length from rfl, List.drop_left]
        obtain ⟨a, l, hl⟩ := List.exists_cons_of_ne_nil (split_ne_nil (x :: xs) t [] 0)
        have hi := ih t [] (by simp at h; omega)
        rw [hl] at hi ⊢
        rw [List.intercalate_cons_cons, hi]
        simp
      · rw [ih cs (acc ++ [c]) (by simpa using h)]
        simp

/-- replacing a text by itself -/
theorem pyReplace_self (x s : PyStr) : pyReplace x x s = s := by
  unfold pyReplace
  split
  · next h => subst h; simp
  · next h => exact join_split x h _ s [] le_rfl

theorem expandAux_skip (env : PyDict PyStr PyStr) : ∀ (n : Nat) (s : PyStr), expandAux env n s = expandAux env 0 (s.drop n) := by
  intro n
  induction n with
  | zero => intro s; rfl
  | succ n ih =>
    intro s
    cases s with
    | nil => simp [expandAux]
    | cons c cs => rw [expandAux, List.drop_succ_cons]; exact ih cs

/-- without `$` nothing happens -/
theorem expand_none (env : PyDict PyStr PyStr) (s : PyStr) (h : '$' ∉ s) : expandvars env s = s := by
  unfold expandvars
  induction s with
  | nil => rfl
  | cons c cs ih =>
    rw [List.mem_cons, not_or] at h
    rw [expandAux, if_neg (Ne.symm h.1), ih h.2]

theorem takeWhile_sep {α : Type} (p : α → Bool) (a r : List α) (x : α) (hx : p x = false) : (a ++ x :: r).takeWhile p = a.takeWhile p := by
  induction a with
  | nil => simp [hx]
  | cons y a ih =>
    rw [List.cons_append, List.takeWhile_cons, List.takeWhile_cons, ih]

theorem takeWhile_mem (a r : PyStr) (h : '}' ∈ a) : (a ++ r).takeWhile (fun x => x != '}') = a.takeWhile (fun x => x != '}') ∧ (a.takeWhile (fun x => x != '}')).length < a.length := by
  induction a with
  | nil => simp at h
  | cons y a ih =>
    rw [List.cons_append, List.takeWhile_cons, List.takeWhile_cons]
    by_cases hy : y = '}'
    · subst hy; simp
    · have := ih (by simpa [Ne.symm hy] using h)
      simp only [bne_iff_ne, ne_eq, hy, not_false_eq_true, if_true, List.length_cons, Nat.add_lt_add_iff_right]
      exact ⟨by rw [this.1], this.2⟩

theorem varName_append (cs r : PyStr) (h : '}' ∉ r) : varName (cs ++ '/' :: r) = varName cs ∧ ∀ n len, varName cs = some (n, len) → len ≤ cs.length := by
  cases cs with
  | nil => exact ⟨by simp [varName, isWord], by simp [varName]⟩
  | cons c cs =>
    rw [List.cons_append]
    simp only [varName]
    by_cases hw : isWord c
    · rw [if_pos hw, if_pos hw, ← List.cons_append, takeWhile_sep isWord (c :: cs) r '/' (by decide)]
      refine ⟨rfl, ?_⟩
      intro n len he
      rw [Option.some.injEq, Prod.mk.injEq] at he
      rw [← he.2]
      exact (List.takeWhile_sublist _).length_le
    · rw [if_neg hw, if_neg hw]
      have hm : '}' ∈ cs ++ '/' :: r ↔ '}' ∈ cs := by simp [h]
      by_cases hb : c = '{' ∧ '}' ∈ cs
      · rw [if_pos hb, if_pos ⟨hb.1, hm.2 hb.2⟩]
        obtain ⟨e, hl⟩ := takeWhile_mem cs ('/' :: r) hb.2
        rw [e]
        refine ⟨rfl, ?_⟩
        intro n len he
        rw [Option.some.injEq, Prod.mk.injEq] at he
        rw [← he.2, List.length_cons]
        omega
      · rw [if_neg hb, if_neg (by rw [hm]; exact hb)]
        exact ⟨rfl, by simp⟩

/-- a file name after a `/` is not touched by the variables of the directory -/
theorem expand_append (env : PyDict PyStr PyStr) (r : PyStr) (h1 : '$' ∉ r) (h2 : '}' ∉ r) : ∀ (k : Nat) (d : PyStr), d.length ≤ k → expandvars env (d ++ '/' :: r) = expandvars env d ++ '/' :: r := by
  have hr : expandAux env 0 ('/' :: r) = '/' :: r := expand_none env ('/' :: r) (by simp [h1])
  unfold expandvars
  intro k
  induction k with
  | zero =>
    intro d hd
    have : d = [] := List.length_eq_zero_iff.1 (Nat.le_zero.1 hd)
    subst this
    exact hr
  | succ k ih =>
    intro d hd
    cases d with
    | nil => exact hr
    | cons c cs =>
      have hk : cs.length ≤ k := by simpa using hd
      rw [List.cons_append]
      unfold expandAux
      by_cases hc : c = '$'
      · rw [if_pos hc, if_pos hc]
        obtain ⟨e, hl⟩ := varName_append cs r h2
        rw [e]
        cases hv : varName cs with
        | none => simp only; rw [ih cs hk]; rfl
        | some nl =>
          obtain ⟨n, len⟩ := nl
          have hle := hl n len hv
          simp only
          have hs : expandAux env len (cs ++ '/' :: r) = expandAux env len cs ++ '/' :: r := by
            rw [expandAux_skip, expandAux_skip env len cs, List.drop_append_of_le_length hle]
            exact ih _ (by rw [List.length_drop]; omega)
          rw [hs, List.take_append_of_le_length hle]
          cases env.get? n <;> simp
      · rw [if_neg hc, if_neg hc, ih cs hk]
        rfl

theorem takeWhile_all {α : Type} (p : α → Bool) (a r : List α) (h1 : ∀ x ∈ a, p x = true) (h2 : ∀ x, r.head? = some x → p x = false) : (a ++ r).takeWhile p = a := by
  induction a with
  | nil =>
    cases r with
    | nil => rfl
    | cons x r => simp [h2 x rfl]
  | cons y a ih => rw [List.cons_append, List.takeWhile_cons, if_pos (h1 y (by simp)), ih (fun x hx => h1 x (by simp [hx]))]

/-- **C123** how variables in a path are expanded: `$NAME` (the longest name possible) and `${NAME}` become the value, undefined ones stay, and other text is kept. -/
theorem C123_expand (env : PyDict PyStr PyStr) (name r : PyStr) :
    ((∀ c ∈ name, isWord c = true) → name ≠ [] → (∀ c, r.head? = some c → isWord c = false) → expandvars env ('$' :: (name ++ r)) = (env.get? name).getD ('$' :: name) ++ expandvars env r) ∧
    ('}' ∉ name → expandvars env ('$' :: '{' :: (name ++ '}' :: r)) = (env.get? name).getD ('$' :: '{' :: (name ++ ['}'])) ++ expandvars env r) ∧
    (∀ c, c ≠ '$' → expandvars env (c :: r) = c :: expandvars env r) := by
  refine ⟨?_, ?_, ?_⟩
  · intro h1 h2 h3
    have hv : varName (name ++ r) = some (name, name.length) := by
      obtain ⟨c, cs, rfl⟩ := List.exists_cons_of_ne_nil h2
      rw [List.cons_append]
      simp only [varName]
      rw [if_pos (h1 c (by simp)), ← List.cons_append, takeWhile_all isWord _ r h1 h3]
    unfold expandvars
    rw [expandAux, if_pos rfl, hv]
    simp only
    rw [expandAux_skip, List.drop_left, List.take_left]
    cases env.get? name <;> simp
  · intro h1
    have hv : varName ('{' :: (name ++ '}' :: r)) = some (name, name.length + 2) := by
      simp only [varName]
      rw [if_neg (by decide), if_pos (by simp), takeWhile_all (fun x => x != '}') name ('}' :: r) (by
        intro x hx
        simp only [bne_iff_ne]
        exact fun e => h1 (e ▸ hx)) (by simp)]
    have hd : ('{' :: (name ++ '}' :: r)).drop (name.length + 2) = r ∧ ('{' :: (name ++ '}' :: r)).take (name.length + 2) = '{' :: (name ++ ['}']) := by
      have e : '{' :: (name ++ '}' :: r) = ('{' :: (name ++ ['}'])) ++ r := by simp
      have hl : name.length + 2 = ('{' :: (name ++ ['}'])).length := by simp
      rw [e, hl, List.drop_left, List.take_left]
      exact ⟨rfl, rfl⟩
    unfold expandvars
    rw [expandAux, if_pos rfl, hv]
    simp only
    rw [expandAux_skip, hd.1, hd.2]
    cases env.get? name <;> simp
  · intro c hc
    unfold expandvars
    rw [expandAux, if_neg hc]

/-! ### the files -/
section
variable {V : Type}

/-- **C123** where the files are looked for: a file given by name; the directory given; `$RR_ARCHETYPE_DIR`; the directory of the code; otherwise an error. -/
theorem C123_sources (le : PyStr → PyStr → Bool) (t : Tree) (codeDir : PyStr) :
    (∀ p, t.isFile p = true → findArchetypes le t codeDir (some p) = .ok [p]) ∧
    (∀ d, t.isFile d = false → '$' ∉ d → findArchetypes le t codeDir (some d) = .ok (pySort le (t.globArch d))) ∧
    (∀ d, t.env.get? "RR_ARCHETYPE_DIR".toList = some d → findArchetypes le t codeDir none = .ok (pySort le (t.globArch d))) ∧
    (t.env.get? "RR_ARCHETYPE_DIR".toList = none → t.pathExists codeDir = true → findArchetypes le t codeDir none = .ok (pySort le (t.globArch codeDir))) ∧
    (t.env.get? "RR_ARCHETYPE_DIR".toList = none → t.pathExists codeDir = false → findArchetypes le t codeDir none = .error .osError) := by
  refine ⟨?_, ?_, ?_, ?_, ?_⟩
  · intro p hp
    simp [findArchetypes, hp]
  · intro d hd hs
    simp only [findArchetypes, hd, Bool.false_eq_true, if_false]
    rw [expand_none _ _ hs]
    congr 2
    exact (List.map_congr_left (fun f _ => pyReplace_self d f)).trans (List.map_id _)
  · intro d hd
    unfold findArchetypes
    simp only
    rw [hd]
  · intro hd hc
    unfold findArchetypes
    simp only
    rw [hd, if_pos hc]
  · intro hd hc
    unfold findArchetypes
    simp only
    rw [hd, if_neg (by simp [hc])]

/-- The files of a directory: `glob` returns the directory joined with names. -/
def FilesOf (t : Tree) (x : PyStr) : Prop := ∀ f ∈ t.globArch x, ∃ name, f = pathJoin x name ∧ name.head? = some 'r' ∧ '$' ∉ name ∧ '}' ∉ name ∧ '/' ∉ name

/-- **C123**, the claim about a directory: every archetype file in it is opened, and nothing else (false of the code for paths with variables). -/
def OpensDirectory (le : PyStr → PyStr → Bool) (t : Tree) (codeDir d : PyStr) : Prop :=
  ∃ files, findArchetypes le t codeDir (some d) = .ok files ∧ List.Perm (files.map (expandvars t.env)) (t.globArch (expandvars t.env d))

/-- **C123** (part) A directory without variables in its path: all its archetype files are opened. -/
theorem C123_directory (le : PyStr → PyStr → Bool) (t : Tree) (codeDir d : PyStr) (hd : t.isFile d = false) (hs : '$' ∉ d) (hf : FilesOf t d) : OpensDirectory le t codeDir d := by
  refine ⟨_, (C123_sources le t codeDir).2.1 d hd hs, ?_⟩
  rw [expand_none _ _ hs]
  have hp := pySort_perm le (t.globArch d)
  refine List.Perm.trans (List.Perm.of_eq ?_) hp
  refine (List.map_congr_left (fun f hfm => ?_)).trans (List.map_id _)
  obtain ⟨name, rfl, h1, h2, _⟩ := hf f (hp.mem_iff.1 hfm)
  show expandvars t.env _ = _
  apply expand_none
  unfold pathJoin
  rw [if_neg (by rw [h1]; decide)]
  split
  · exact h2
  · split <;> simp [hs, h2]

/-- **C123** (part) A directory given with environment variables: all its archetype files are opened if the text of the directory occurs nowhere else in their paths, and the path either ends with `/` as it is
written, or does not end with `/` after expansion. -/
theorem C123_variables_partial (le : PyStr → PyStr → Bool) (t : Tree) (codeDir d : PyStr) (hd : t.isFile d = false) (hf : FilesOf t (expandvars t.env d)) (h0 : expandvars t.env d ≠ [])
    (hend : d.getLast? = some '/' ∨ (expandvars t.env d).getLast? ≠ some '/')
    (honce : ∀ name, pathJoin (expandvars t.env d) name ∈ t.globArch (expandvars t.env d) → ¬ expandvars t.env d <:+: ('/' :: name)) : OpensDirectory le t codeDir d := by
  refine ⟨pySort le ((t.globArch (expandvars t.env d)).map (pyReplace (expandvars t.env d) d)), by simp [findArchetypes, hd], ?_⟩
  refine ((pySort_perm le _).map _).trans (List.Perm.of_eq ?_)
  rw [List.map_map]
  refine (List.map_congr_left (fun f hfm => ?_)).trans (List.map_id _)
  obtain ⟨name, rfl, h1, h2, h3, h4⟩ := hf f hfm
  have ho := honce name hfm
  simp only [Function.comp, id]
  by_cases hl : d.getLast? = some '/'
  · obtain ⟨e, rfl⟩ : ∃ e, d = e ++ ['/'] := by
      rw [List.getLast?_eq_some_iff] at hl
      exact hl
    have hx : expandvars t.env (e ++ ['/']) = expandvars t.env e ++ ['/'] := expand_append t.env [] (by simp) (by simp) _ e le_rfl
    have hj : pathJoin (expandvars t.env (e ++ ['/'])) name = expandvars t.env (e ++ ['/']) ++ name := by
      unfold pathJoin
      rw [if_neg (by rw [h1]; decide), if_neg h0, if_pos (by rw [hx]; simp)]
    rw [hj, pyReplace_prefix _ _ _ h0 (fun hi => ho (hi.trans (List.suffix_cons _ _).isInfix)), List.append_assoc, List.singleton_append, expand_append t.env name h2 h3 _ e le_rfl, hx]
    simp
  · have hx := hend.resolve_left hl
    have hj : pathJoin (expandvars t.env d) name = expandvars t.env d ++ '/' :: name := by
      unfold pathJoin
      rw [if_neg (by rw [h1]; decide), if_neg h0, if_neg hx]
      simp
    rw [hj, pyReplace_prefix _ _ _ h0 ho, expand_append t.env name h2 h3 _ d le_rfl]

/-! ### the types -/

/-- The archetypes of type `T` come from the file `a`: the last one, in the order of the list, that has this type. -/
def LastOfType (as : List (Arch V)) (T : PyStr) (a : Arch V) : Prop := ∃ pre post, as = pre ++ [a] ++ post ∧ a.rrtype = T ∧ ∀ b ∈ post, b.rrtype ≠ T

theorem get_dict (as : List (Arch V)) (T : PyStr) : (archDict as).get? T = as.reverse.find? (fun a => decide (a.rrtype = T)) := by
  unfold archDict
  rw [PyDict.get?_foldl_set (fun a : Arch V => a.rrtype) (fun a => a), PyDict.get?_nil, Option.or_none, Option.map_id']

/-- **C123** A template of type `T` is compared with the archetypes of the last file (in alphabetical order) of this type, and is fitted without archetypes if no file has this type. -/
theorem C123_used (le : PyStr → PyStr → Bool) (t : Tree) (codeDir : PyStr) (read : PyStr → Py (PyStr × PyStr × V)) (arg : Option PyStr) (files : List PyStr)
    (hf : findArchetypes le t codeDir arg = .ok files) (d : PyDict PyStr (Arch V)) (h : allArchetypes le t codeDir read arg = .ok d) (T : PyStr) :
    ∃ as, List.Forall₂ (fun f (a : Arch V) => ∃ rrtype, read (expandvars t.env f) = .ok (rrtype, a.version, a.data) ∧ a.rrtype = pyStrip rrtype ∧ a.filename = f) files as ∧
      (∀ a, archetypeFor (some d) T = some a ↔ LastOfType as T a) ∧ (archetypeFor (some d) T = none ↔ ∀ a ∈ as, a.rrtype ≠ T) := by
  unfold allArchetypes at h
  rw [hf, okBind] at h
  obtain ⟨as, h1, h2⟩ := Except.bind_ok _ _ _ h
  have h2 := Except.ok.inj h2
  refine ⟨as, ?_, ?_, ?_⟩
  · refine (mapM_inv _ _ _ h1).imp ?_
    intro f a ha
    unfold openArch at ha
    obtain ⟨⟨ty, v, x⟩, h3, h4⟩ := Except.bind_ok _ _ _ ha
    rw [← Except.ok.inj h4]
    exact ⟨ty, h3, rfl, rfl⟩
  · intro a
    show d.get? T = some a ↔ _
    rw [← h2, get_dict, List.find?_eq_some_iff_append]
    unfold LastOfType
    constructor
    · rintro ⟨hT, us, vs, hab, hnot⟩
      refine ⟨vs.reverse, us.reverse, ?_, by simpa using hT, ?_⟩
      · rw [← List.reverse_reverse as, hab]
        simp
      · intro b hb
        simpa using hnot b (List.mem_reverse.1 hb)
    · rintro ⟨pre, post, rfl, hT, hnot⟩
      refine ⟨by simpa using hT, post.reverse, pre.reverse, by simp, ?_⟩
      intro b hb
      simpa using hnot b (List.mem_reverse.1 hb)
  · show d.get? T = none ↔ _
    rw [← h2, get_dict, List.find?_eq_none]
    simp

/-- **C123** the archetypes are loaded if, and only if, every file found can be read. -/
theorem C123_loaded_iff (le : PyStr → PyStr → Bool) (t : Tree) (codeDir : PyStr) (read : PyStr → Py (PyStr × PyStr × V)) (arg : Option PyStr) (files : List PyStr)
    (hf : findArchetypes le t codeDir arg = .ok files) : (∃ d, allArchetypes le t codeDir read arg = .ok d) ↔ ∀ f ∈ files, ∃ r, read (expandvars t.env f) = .ok r := by
  unfold allArchetypes
  rw [hf, okBind]
  constructor
  · rintro ⟨d, h⟩ f hfm
    obtain ⟨as, h1, _⟩ := Except.bind_ok _ _ _ h
    have hF := mapM_inv _ _ _ h1
    obtain ⟨a, _, ha⟩ := Redrock.Catalogue.forall₂_left_mem hF f hfm
    unfold openArch at ha
    obtain ⟨r, h3, _⟩ := Except.bind_ok _ _ _ ha
    exact ⟨r, h3⟩
  · intro h
    by_cases hne : files = []
    · subst hne; exact ⟨_, rfl⟩
    obtain ⟨f0, hf0⟩ := List.exists_mem_of_ne_nil files hne
    haveI : Nonempty (PyStr × PyStr × V) := ⟨(h f0 hf0).choose⟩
    choose! r hr using h
    have has := mapM_ok (openArch t.env read) (fun f => (⟨f, pyStrip (r f).1, (r f).2.1, (r f).2.2⟩ : Arch V)) files (by
      intro f hfm
      unfold openArch
      rw [hr f hfm]
      rfl)
    exact ⟨_, by rw [has]; rfl⟩

theorem upper_not_lower (x : Char) : x.toUpper.isLower = false := by
  unfold Char.isLower Char.toUpper
  split
  · next h =>
    have h1 : (97 : Nat) ≤ x.val.toNat := h.1
    have h2 : x.val.toNat ≤ 122 := h.2
    have e : ('A'.val - 'a'.val).toNat = 4294967264 := by decide
    rw [Bool.and_eq_false_iff, decide_eq_false_iff_not, decide_eq_false_iff_not]
    left
    intro hc
    have hc : (97 : Nat) ≤ (x.val + ('A'.val - 'a'.val)).toNat := hc
    rw [UInt32.toNat_add, e] at hc
    omega
  · next h =>
    rw [Bool.and_eq_false_iff, decide_eq_false_iff_not, decide_eq_false_iff_not]
    by_contra hn
    push Not at hn
    exact h ⟨hn.1, hn.2⟩

/-- **C123** Types are compared as written: template types are upper case, archetype types are not converted, so the archetypes of a file whose `RRTYPE` has a small letter are used for no template. -/
theorem C123_case (float : PyStr → Py ℝ) (opts : ZscanOptions) (f : TemplateFile) (tm : Template) (h : Template.load float opts f = .ok tm) (as : List (Arch V)) (a : Arch V)
    (ha : archetypeFor (some (archDict as)) tm.rrtype = some a) : ∀ c ∈ a.rrtype, c.isLower = false := by
  have e : a.rrtype = tm.rrtype := by
    have : (archDict as).get? tm.rrtype = some a := ha
    rw [get_dict] at this
    simpa using List.find?_some this
  obtain ⟨ty, hty⟩ : ∃ s, tm.rrtype = pyUpper s := by
    unfold Template.load at h
    obtain ⟨ty, _, h⟩ := Except.bind_ok _ _ _ h
    obtain ⟨zs, _, h⟩ := Except.bind_ok _ _ _ h
    refine ⟨pyStrip ty, ?_⟩
    simp only [bind, Except.bind, throw, throwThe, MonadExceptOf.throw, pure, Except.pure] at h
    repeat' (first | (split at h) | cases h)
    all_goals rfl
  rw [e, hty]
  intro c hc
  unfold pyUpper at hc
  obtain ⟨x, _, rfl⟩ := List.mem_map.1 hc
  exact upper_not_lower x

/-! ### the header -/

theorem writeArchKeys_append (hdr : Header) (d : List (PyStr × Arch V)) (a : PyStr × Arch V) : writeArchKeys hdr (d ++ [a]) =
    ((((writeArchKeys hdr d).set (hkey "ARCNAM" d.length) a.2.rrtype).set (hkey "ARCVER" d.length) a.2.version).set (hkey "ARCFIL" d.length) (basename a.2.filename)) := by
  unfold writeArchKeys
  rw [List.zipIdx_append, List.foldl_append]
  simp

theorem header_entry (hdr : Header) (d : List (PyStr × Arch V)) (i : Nat) (e : PyStr × Arch V) (h : d[i]? = some e) :
    (writeArchKeys hdr d).get? (hkey "ARCNAM" i) = some e.2.rrtype ∧ (writeArchKeys hdr d).get? (hkey "ARCVER" i) = some e.2.version ∧ (writeArchKeys hdr d).get? (hkey "ARCFIL" i) = some (basename e.2.filename) := by
  induction d using List.reverseRecOn with
  | nil => simp at h
  | append_singleton d a ih =>
    have n1 : ∀ j, hkey "ARCNAM" i ≠ hkey "ARCVER" j := hkey_ne _ _ (by decide) (by decide) i
    have n2 : ∀ j, hkey "ARCNAM" i ≠ hkey "ARCFIL" j := hkey_ne _ _ (by decide) (by decide) i
    have n3 : ∀ j, hkey "ARCVER" i ≠ hkey "ARCNAM" j := hkey_ne _ _ (by decide) (by decide) i
    have n4 : ∀ j, hkey "ARCVER" i ≠ hkey "ARCFIL" j := hkey_ne _ _ (by decide) (by decide) i
    have n5 : ∀ j, hkey "ARCFIL" i ≠ hkey "ARCNAM" j := hkey_ne _ _ (by decide) (by decide) i
    have n6 : ∀ j, hkey "ARCFIL" i ≠ hkey "ARCVER" j := hkey_ne _ _ (by decide) (by decide) i
    rw [writeArchKeys_append]
    simp only [PyDict.get?_set]
    by_cases hi : i = d.length
    · subst hi
      rw [List.getElem?_append_right le_rfl] at h
      simp only [Nat.sub_self, List.getElem?_cons_zero, Option.some.injEq] at h
      subst h
      simp [(n1 _).symm, (n2 _).symm, (n4 _).symm]
    · have hne : ∀ p, hkey p i ≠ hkey p d.length := fun p e => hi (hkey_inj _ _ _ e)
      have hlt : i < d.length := by
        rcases Nat.lt_or_ge i d.length with hl | hl
        · exact hl
        · rw [List.getElem?_eq_none (by simp; omega)] at h
          cases h
      rw [List.getElem?_append_left hlt] at h
      simp [(n1 _).symm, (n2 _).symm, (n3 _).symm, (n4 _).symm, (n5 _).symm, (n6 _).symm, (hne _).symm, ih h]

/-- **C123** The header of the output names the archetypes that were used: for every type with archetypes there is a number under which type, version and name of the file are recorded. -/
theorem C123_header (hdr : Header) (as : List (Arch V)) (T : PyStr) (a : Arch V) (h : archetypeFor (some (archDict as)) T = some a) :
    ∃ i, (writeArchKeys hdr (archDict as)).get? (hkey "ARCNAM" i) = some T ∧ (writeArchKeys hdr (archDict as)).get? (hkey "ARCVER" i) = some a.version ∧
      (writeArchKeys hdr (archDict as)).get? (hkey "ARCFIL" i) = some (basename a.filename) := by
  have hg : (archDict as).get? T = some a := h
  have hT : a.rrtype = T := by
    rw [get_dict] at hg
    simpa using List.find?_some hg
  have hm : (T, a) ∈ (archDict as : List (PyStr × Arch V)) := PyDict.mem_of_get? _ _ _ hg
  obtain ⟨i, hi⟩ := List.getElem?_of_mem hm
  refine ⟨i, ?_⟩
  have := header_entry hdr (archDict as) i (T, a) hi
  rw [hT] at this
  exact this
end

/-! ### refutation and examples -/

/-- `$ARCH` is `/data/arch/`: one file for galaxies -/
def exTree (value : String) : Tree where
  isFile := fun _ => false
  pathExists := fun _ => true
  globArch := fun d => if d = value.toList then [pathJoin value.toList "rrarchetype-galaxy.fits".toList] else []
  env := [("ARCH".toList, value.toList)]

/-- **C123**, refuted part: with `$ARCH` = `/data/arch/` (note the slash at the end) and the path `$ARCH`, the file opened is `$ARCHrrarchetype-galaxy.fits`, which does not exist, instead of the file of the directory. -/
theorem C123_trailing_slash_refuted : ¬ (∀ (t : Tree) (d : PyStr), t.isFile d = false → FilesOf t (expandvars t.env d) → OpensDirectory (fun _ _ => true) t [] d) := by
  intro h
  obtain ⟨files, h1, h2⟩ := h (exTree "/data/arch/") "$ARCH".toList rfl (by
    intro f hf
    refine ⟨"rrarchetype-galaxy.fits".toList, ?_, by decide, by decide, by decide, by decide⟩
    have : f ∈ [pathJoin "/data/arch/".toList "rrarchetype-galaxy.fits".toList] := by
      have e : (exTree "/data/arch/").globArch (expandvars (exTree "/data/arch/").env "$ARCH".toList) = [pathJoin "/data/arch/".toList "rrarchetype-galaxy.fits".toList] := by decide +kernel
      rw [e] at hf
      exact hf
    rw [List.mem_singleton] at this
    rw [this]
    decide +kernel)
  have e1 : findArchetypes (fun _ _ => true) (exTree "/data/arch/") [] (some "$ARCH".toList) = .ok ["$ARCHrrarchetype-galaxy.fits".toList] := by decide +kernel
  rw [e1] at h1
  rw [← Except.ok.inj h1] at h2
  have := h2.mem_iff (a := "/data/arch/rrarchetype-galaxy.fits".toList)
  revert this
  decide +kernel

/-- **C123**, refuted part: a relative directory given by a variable, `$ARCH` = `arch`: `arch` also occurs in the name of the file, and both are replaced. -/
theorem C123_relative_refuted : ¬ OpensDirectory (fun _ _ => true) (exTree "arch") [] "$ARCH".toList := by
  rintro ⟨files, h1, h2⟩
  have e1 : findArchetypes (fun _ _ => true) (exTree "arch") [] (some "$ARCH".toList) = .ok ["$ARCH/rr$ARCHetype-galaxy.fits".toList] := by decide +kernel
  rw [e1] at h1
  rw [← Except.ok.inj h1] at h2
  have := h2.mem_iff (a := "arch/rrarchetype-galaxy.fits".toList)
  revert this
  decide +kernel

/-- without the slash at the end it works -/
example : OpensDirectory (fun _ _ => true) (exTree "/data/arch") [] "$ARCH".toList :=
  ⟨["$ARCH/rrarchetype-galaxy.fits".toList], by decide +kernel, by decide +kernel⟩

/-- the conditions of `C123_variables_partial` are met by `$ARCH` = `/data/arch` -/
example : expandvars (exTree "/data/arch").env "$ARCH".toList ≠ [] ∧ (expandvars (exTree "/data/arch").env "$ARCH".toList).getLast? ≠ some '/' ∧
    (exTree "/data/arch").globArch (expandvars (exTree "/data/arch").env "$ARCH".toList) = ["/data/arch/rrarchetype-galaxy.fits".toList] := by decide +kernel

/-- **C123** `rrdesi` accepts a path that exists as it is written (variables are not expanded here), is readable, is not an empty directory, and, for a file, has a dash in its name. -/
theorem C123_rrdesi (t : Tree) (isDir nonEmpty readable : PyStr → Bool) (path : PyStr) :
    rrdesiArchCheck t isDir nonEmpty readable path = .ok () ↔
      t.pathExists path = true ∧ readable path = true ∧ (isDir path = true → nonEmpty path = true) ∧ (t.isFile path = true → '-' ∈ basename path) := by
  have hdash : 2 ≤ (pySplit ['-'] (basename path)).length ↔ '-' ∈ basename path := by
    constructor
    · intro h
      by_contra hn
      have : pySplit ['-'] (basename path) = [basename path] := by
        have := pySplitAux_none ['-'] (basename path) [] (by
          rintro ⟨a, b, hab⟩
          exact hn (hab ▸ by simp))
        exact this
      rw [this] at h
      simp at h
    · intro h
      obtain ⟨a, b, hab⟩ := List.append_of_mem h
      exact two_le_of_infix ['-'] (by simp) _ [] ⟨a, b, by rw [hab]; simp⟩
  unfold rrdesiArchCheck
  cases t.pathExists path <;> cases readable path <;> cases isDir path <;> cases nonEmpty path <;> cases t.isFile path <;> simp [hdash]

/-- two files of one type: the alphabetically last one is used; a type in small letters is used for no template -/
example : let as : List (Arch Nat) := [⟨"rrarchetype-galaxy-v1.fits".toList, "GALAXY".toList, "1".toList, 1⟩, ⟨"rrarchetype-galaxy-v2.fits".toList, "GALAXY".toList, "2".toList, 2⟩,
      ⟨"rrarchetype-qso.fits".toList, "qso".toList, "1".toList, 3⟩]
    (archetypeFor (some (archDict as)) "GALAXY".toList).map (·.data) = some 2 ∧ (archetypeFor (some (archDict as)) "QSO".toList).map (·.data) = none := by decide +kernel

end ArchFiles
end Redrock
