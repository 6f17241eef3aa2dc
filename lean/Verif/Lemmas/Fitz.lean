import Verif.Model.Fitz
import Verif.Lemmas.Minima
import Mathlib.Tactic.Ring
import Mathlib.Tactic.FieldSimp
import Mathlib.Tactic.Positivity
import Mathlib.Tactic.NormNum

set_option linter.unusedSectionVars false

namespace Redrock

theorem Except.bind_ok {ε α β : Type} (x : Except ε α) (f : α → Except ε β) (b : β)
    (h : (x >>= f) = .ok b) : ∃ a, x = .ok a ∧ f a = .ok b := by
  cases x with
  | error e => simp [bind, Except.bind] at h
  | ok a => exact ⟨a, rfl, h⟩

theorem npGet_ok {V : Type} (x : List V) (i : Nat) (v : V) : npGet x i = .ok v ↔ x[i]? = some v := by
  unfold npGet
  cases x[i]? <;> simp

theorem npGetNeg_ok {V : Type} (x : List V) (k : Nat) (v : V) :
    npGetNeg x k = .ok v ↔ k ≤ x.length ∧ x[x.length - k]? = some v := by
  unfold npGetNeg
  split
  · rename_i h; rw [npGet_ok]; simp [h]
  · rename_i h; simp [h]

section
variable {K : Type} [Field K] [LinearOrder K] [IsStrictOrderedRing K]

theorem npMin_spec (x : List K) (m : K) (h : npMin x = .ok m) : m ∈ x ∧ ∀ y ∈ x, m ≤ y := by
  unfold npMin at h
  have hne : x ≠ [] := by rintro rfl; simp [pyMinBy] at h
  obtain ⟨m', h1, h2, h3⟩ := pyMinBy_spec id x hne
  rw [h1] at h; cases h
  exact ⟨h2, fun y hy => h3 y hy⟩

theorem npMin_ne (x : List K) (hne : x ≠ []) : ∃ m, npMin x = .ok m := by
  obtain ⟨m', h1, _⟩ := pyMinBy_spec id x hne
  exact ⟨m', h1⟩

theorem foldl_max_spec (vs : List K) (v : K) :
    (vs.foldl max v = v ∨ vs.foldl max v ∈ vs) ∧ v ≤ vs.foldl max v ∧ ∀ y ∈ vs, y ≤ vs.foldl max v := by
  induction vs generalizing v with
  | nil => simp
  | cons w ws ih =>
    simp only [List.foldl_cons]
    obtain ⟨h1, h2, h3⟩ := ih (max v w)
    refine ⟨?_, le_trans (le_max_left _ _) h2, ?_⟩
    · rcases h1 with h1 | h1
      · rw [h1]
        rcases max_choice v w with h | h
        · left; exact h
        · right; rw [h]; simp
      · right; exact List.mem_cons_of_mem _ h1
    · intro y hy
      rcases List.mem_cons.1 hy with rfl | hy
      · exact le_trans (le_max_right _ _) h2
      · exact h3 y hy

theorem npMax_spec (x : List K) (m : K) (h : npMax x = .ok m) : m ∈ x ∧ ∀ y ∈ x, y ≤ m := by
  cases x with
  | nil => simp [npMax] at h
  | cons v vs =>
    simp only [npMax, Except.ok.injEq] at h
    subst h
    obtain ⟨h1, h2, h3⟩ := foldl_max_spec vs v
    refine ⟨?_, ?_⟩
    · rcases h1 with h1 | h1
      · rw [h1]; simp
      · exact List.mem_cons_of_mem _ h1
    · intro y hy
      rcases List.mem_cons.1 hy with rfl | hy
      · exact h2
      · exact h3 y hy

theorem npArgmin_spec (x : List K) (k : Nat) (h : npArgmin x = .ok k) :
    ∃ m, x[k]? = some m ∧ ∀ y ∈ x, m ≤ y := by
  obtain ⟨m, hm, hk⟩ := Except.bind_ok _ _ _ h
  obtain ⟨h1, h2⟩ := npMin_spec x m hm
  obtain ⟨i, hi, h3, h4⟩ := pyIndex_spec x m h1
  rw [h3] at hk; cases hk
  exact ⟨m, by rw [List.getElem?_eq_getElem hi, h4], h2⟩

theorem linspace_get (lo hi : K) (n k : Nat) (v : K) (h : (linspace lo hi n)[k]? = some v) :
    k < n ∧ v = lo + (k : K) * ((hi - lo) / ((n : K) - 1)) := by
  unfold linspace at h
  have hk : k < n := by
    by_contra hc
    rw [List.getElem?_eq_none (by simpa using hc)] at h
    simp at h
  rw [List.getElem?_map, List.getElem?_range hk] at h
  simp only [Option.map_some, Option.some.injEq] at h
  exact ⟨hk, h.symm⟩

theorem linspace_length (lo hi : K) (n : Nat) : (linspace lo hi n).length = n := by simp [linspace]

theorem linspace_mem (lo hi : K) (hle : lo ≤ hi) (n k : Nat) (hn : 2 ≤ n) (v : K) (h : (linspace lo hi n)[k]? = some v) :
    lo ≤ v ∧ v ≤ hi := by
  obtain ⟨hk, rfl⟩ := linspace_get lo hi n k v h
  have hn' : (0 : K) < (n : K) - 1 := by
    have : (2 : K) ≤ n := by exact_mod_cast hn
    linarith
  have hk' : (k : K) ≤ (n : K) - 1 := by
    have : (k : K) + 1 ≤ n := by exact_mod_cast hk
    linarith
  have h0 : (0 : K) ≤ k := Nat.cast_nonneg k
  have hd : 0 ≤ (hi - lo) / ((n : K) - 1) := div_nonneg (by linarith) hn'.le
  constructor
  · have := mul_nonneg h0 hd; linarith
  · have h1 : (k : K) * ((hi - lo) / ((n : K) - 1)) ≤ ((n : K) - 1) * ((hi - lo) / ((n : K) - 1)) :=
      mul_le_mul_of_nonneg_right hk' hd
    rw [mul_div_cancel₀ _ (ne_of_gt hn')] at h1
    linarith

theorem linspace_first (lo hi : K) (n : Nat) (v : K) (h : npGet (linspace lo hi n) 0 = .ok v) : v = lo := by
  rw [npGet_ok] at h
  obtain ⟨_, h⟩ := linspace_get _ _ _ _ _ h
  simpa using h

theorem linspace_last (lo hi : K) (n : Nat) (hn : 2 ≤ n) (v : K) (h : npGetNeg (linspace lo hi n) 1 = .ok v) : v = hi := by
  rw [npGetNeg_ok] at h
  obtain ⟨_, h⟩ := linspace_get _ _ _ _ _ h.2
  rw [linspace_length] at h
  have hn' : (n : K) - 1 ≠ 0 := by
    have : (2 : K) ≤ n := by exact_mod_cast hn
    intro h; linarith
  rw [h, Nat.cast_sub (by omega)]
  rw [Nat.cast_one, mul_div_cancel₀ _ hn']; ring

/-- What one pass of `fitzFinish` does when it does not raise. -/
theorem fitzFinish_spec (E : FitEnv K) (redshifts zz zzchi2 : List K) (results : List (Cand K))
    (zmin sigma chi2min : K) (zwarn : Nat) (coeff : List K) (tr : Option K) (res : List (Cand K))
    (h : fitzFinish E redshifts zz zzchi2 results zmin sigma chi2min zwarn coeff tr = .ok res) :
    res = results ∨ ∃ (c : Cand K) (zfirst zlast z1 zm2 : K) (zw1 : Nat) (chi2pre : K),
      res = results ++ [c] ∧ (∀ p ∈ results, maxVeloDiff E.isStar ≤ |getDv c.z p.z|) ∧
      npGet zz 0 = .ok zfirst ∧ npGetNeg zz 1 = .ok zlast ∧
      npGet redshifts 1 = .ok z1 ∧ npGetNeg redshifts 2 = .ok zm2 ∧
      ((zfirst ≤ zmin ∧ zmin ≤ zlast ∧ c.z = zmin ∧ zw1 = zwarn ∧ chi2pre = chi2min) ∨
       ((zmin < zfirst ∨ zlast < zmin) ∧ zw1 = zwarn ||| ZW.BAD_MINFIT ∧
          ∃ k, npArgmin zzchi2 = .ok k ∧ npGet zz k = .ok c.z ∧ npGet zzchi2 k = .ok chi2pre)) ∧
      c.zwarn = (if zmin < z1 ∨ zm2 < zmin then
          (if c.z < z1 ∨ zm2 < c.z then zw1 ||| ZW.Z_FITLIMIT else zw1) ||| ZW.Z_FITLIMIT
        else (if c.z < z1 ∨ zm2 < c.z then zw1 ||| ZW.Z_FITLIMIT else zw1)) ∧
      c.zerr = sigma ∧ (E.arch = none → c.coeff = coeff ∧ c.chi2 = chi2pre) := by
  unfold fitzFinish at h
  obtain ⟨zfirst, hf, h⟩ := Except.bind_ok _ _ _ h
  obtain ⟨zlast, hl, h⟩ := Except.bind_ok _ _ _ h
  obtain ⟨⟨zbest, chi2pre, zw1⟩, hb, h⟩ := Except.bind_ok _ _ _ h
  obtain ⟨z1, h1, h⟩ := Except.bind_ok _ _ _ h
  obtain ⟨zm2, h2, h⟩ := Except.bind_ok _ _ _ h
  dsimp only at h
  split at h
  · left; cases h; rfl
  · rename_i hany
    right
    have hsep : ∀ p ∈ results, maxVeloDiff E.isStar ≤ |getDv zbest p.z| := by
      intro p hp
      by_contra hc
      apply hany
      rw [List.any_eq_true]
      exact ⟨p, hp, by simpa using not_le.1 hc⟩
    have hcase : (zfirst ≤ zmin ∧ zmin ≤ zlast ∧ zbest = zmin ∧ zw1 = zwarn ∧ chi2pre = chi2min) ∨
       ((zmin < zfirst ∨ zlast < zmin) ∧ zw1 = zwarn ||| ZW.BAD_MINFIT ∧
          ∃ k, npArgmin zzchi2 = .ok k ∧ npGet zz k = .ok zbest ∧ npGet zzchi2 k = .ok chi2pre) := by
      split at hb
      · rename_i hout
        right
        obtain ⟨k, hk, hb⟩ := Except.bind_ok _ _ _ hb
        obtain ⟨zb, hzb, hb⟩ := Except.bind_ok _ _ _ hb
        obtain ⟨cb, hcb, hb⟩ := Except.bind_ok _ _ _ hb
        cases hb
        exact ⟨hout, rfl, k, hk, hzb, hcb⟩
      · rename_i hin
        left
        cases hb
        rw [not_or, not_lt, not_lt] at hin
        exact ⟨hin.1, hin.2, rfl, rfl, rfl⟩
    cases harch : E.arch with
    | none =>
      rw [harch] at h
      simp only [pure, Except.pure, Except.ok.injEq] at h
      exact ⟨_, zfirst, zlast, z1, zm2, zw1, chi2pre, h.symm, hsep, hf, hl, h1, h2, hcase, rfl, rfl,
        fun _ => ⟨rfl, rfl⟩⟩
    | some A =>
      rw [harch] at h
      obtain ⟨⟨ca, aa, st⟩, _, h⟩ := Except.bind_ok _ _ _ h
      dsimp only at h
      split at h
      · cases h
      · simp only [pure, Except.pure, Except.ok.injEq] at h
        exact ⟨_, zfirst, zlast, z1, zm2, zw1, chi2pre, h.symm, hsep, hf, hl, h1, h2, hcase, rfl, rfl,
          fun h => by cases h⟩

/-- What one pass of the loop body does when it does not raise. -/
theorem fitzBody_spec (E : FitEnv K) (n : Nat) (redshifts : List K) (results : List (Cand K)) (imin : Nat)
    (res : List (Cand K)) (h : fitzBody E n redshifts results imin = .ok res) :
    res = results ∨ ∃ zlo zhi zzchi2 am zmin sigma chi2min zwarn zwarn' coeff tr,
      npGet redshifts (imin - 1) = .ok zlo ∧ npGet redshifts (min (imin + 1) (n - 1)) = .ok zhi ∧
      E.scan (linspace zlo zhi E.nz) = .ok zzchi2 ∧ npArgmin zzchi2 = .ok am ∧
      E.minfit (pySlice (linspace zlo zhi E.nz) (min (max (am : Int) 1) ((E.nz : Int) - 2) - 1) (min (max (am : Int) 1) ((E.nz : Int) - 2) + 2))
        (pySlice zzchi2 (min (max (am : Int) 1) ((E.nz : Int) - 2) - 1) (min (max (am : Int) 1) ((E.nz : Int) - 2) + 2))
        = .ok (zmin, sigma, chi2min, zwarn) ∧
      ((E.fitAt zmin = .ok coeff ∧ tr = some zmin ∧ zwarn' = zwarn) ∨
        (E.fitAt zmin = .error .valueError ∧ tr = none ∧ coeff = List.replicate E.nbasis 0 ∧
          zwarn' = zwarn ||| ZW.Z_FITLIMIT ||| ZW.BAD_MINFIT)) ∧
      fitzFinish E redshifts (linspace zlo zhi E.nz) zzchi2 results zmin sigma chi2min zwarn' coeff tr = .ok res := by
  unfold fitzBody at h
  obtain ⟨zi, hzi, h⟩ := Except.bind_ok _ _ _ h
  dsimp only at h
  split at h
  · left; cases h; rfl
  · right
    obtain ⟨zlo, hlo, h⟩ := Except.bind_ok _ _ _ h
    obtain ⟨zhi, hhi, h⟩ := Except.bind_ok _ _ _ h
    obtain ⟨zzchi2, hsc, h⟩ := Except.bind_ok _ _ _ h
    obtain ⟨am, ham, h⟩ := Except.bind_ok _ _ _ h
    obtain ⟨⟨zmin, sigma, chi2min, zwarn⟩, hmf, h⟩ := Except.bind_ok _ _ _ h
    rw [linspace_length] at hmf
    dsimp only at h
    split at h
    · rename_i coeff hfit
      exact ⟨zlo, zhi, zzchi2, am, zmin, sigma, chi2min, zwarn, zwarn, coeff, some zmin, hlo, hhi, hsc, ham, hmf,
        Or.inl ⟨hfit, rfl, rfl⟩, h⟩
    · rename_i hfit
      obtain ⟨z0, _, h⟩ := Except.bind_ok _ _ _ h
      obtain ⟨zl, _, h⟩ := Except.bind_ok _ _ _ h
      split at h
      · exact ⟨zlo, zhi, zzchi2, am, zmin, sigma, chi2min, zwarn, _, _, none, hlo, hhi, hsc, ham, hmf,
          Or.inr ⟨hfit, rfl, rfl, rfl⟩, h⟩
      · cases h
    · cases h

/-- Loop invariant rule for `fitzLoop`. -/
theorem fitzLoop_induction (E : FitEnv K) (nminima n : Nat) (redshifts : List K) (P : List (Cand K) → Prop)
    (minima : List Nat)
    (hstep : ∀ imin ∈ minima, ∀ res res', P res → res.length ≠ nminima → fitzBody E n redshifts res imin = .ok res' → P res')
    (res res' : List (Cand K)) (h0 : P res) (h : fitzLoop E nminima n redshifts minima res = .ok res') : P res' := by
  induction minima generalizing res with
  | nil => simp only [fitzLoop, Except.ok.injEq] at h; rw [← h]; exact h0
  | cons i rest ih =>
    rw [fitzLoop] at h
    split at h
    · cases h; exact h0
    · rename_i hne
      obtain ⟨r1, h1, h2⟩ := Except.bind_ok _ _ _ h
      exact ih (fun j hj => hstep j (List.mem_cons_of_mem _ hj)) r1 (hstep i List.mem_cons_self _ _ h0 hne h1) h2

/-- the final reordering is a permutation sorted by chi2 -/
theorem fitz_spec (argsort : List (Ext K) → List Nat) (harg : IsArgsort Ext.sortLe argsort) (E : FitEnv K) (nminima : Nat)
    (zchi2 : List (Ext K)) (redshifts : List K) (r : List (Cand K))
    (h : fitz argsort E nminima zchi2 redshifts = .ok r) :
    zchi2.length = redshifts.length ∧ ∃ minima found, findMinima argsort zchi2 = .ok minima ∧
      fitzLoop E nminima zchi2.length redshifts minima [] = .ok found ∧ found.Perm r ∧
      r.Pairwise (fun a b => a.chi2 ≤ b.chi2) := by
  unfold fitz at h
  split at h
  · cases h
  · rename_i hlen
    have hlen' : zchi2.length = redshifts.length := by simpa using hlen
    obtain ⟨minima, hm, h⟩ := Except.bind_ok _ _ _ h
    obtain ⟨found, hf, h⟩ := Except.bind_ok _ _ _ h
    dsimp only at h
    refine ⟨hlen', minima, found, hm, hf, ?_⟩
    obtain ⟨hp, hs⟩ := harg (found.map (fun c => .fin c.chi2))
    rw [List.length_map] at hp
    have hlt : ∀ i ∈ argsort (found.map (fun c => .fin c.chi2)), i < found.length := by
      intro i hi
      have := hp.subset hi
      rwa [List.mem_range] at this
    obtain ⟨r', hr1, hr2, hr3⟩ := npTake_ok found _ hlt
    rw [hr1] at h
    cases h
    generalize hA : argsort (found.map (fun c => .fin c.chi2)) = A at *
    cases hfd : found with
    | nil =>
      subst hfd
      have hA0 : A = [] := by
        have := hp.length_eq
        simpa using this
      subst hA0
      have : r = [] := by simpa using hr2
      subst this
      exact ⟨List.Perm.refl _, List.Pairwise.nil⟩
    | cons d tl =>
      rw [← hfd]
      have hrmap : r = A.map (fun j => found.getD j d) := by
        apply List.ext_getElem?
        intro k
        rw [hr3, List.getElem?_map]
        cases hk : A[k]? with
        | none => rfl
        | some j =>
          have := hlt j (List.mem_of_getElem? hk)
          simp [List.getElem?_eq_getElem this]
      constructor
      · rw [hrmap]
        refine (List.Perm.symm ((hp.map _).trans ?_))
        have : (List.range found.length).map (fun j => found.getD j d) = found := by
          apply List.ext_getElem (by simp)
          intro k h1 h2
          simp [h2]
        rw [this]
      · rw [hrmap, List.pairwise_map]
        refine List.Pairwise.imp_of_mem ?_ hs
        intro j k hj hk hh
        have hj' := hlt j hj
        have hk' := hlt k hk
        have := hh (.fin found[j].chi2) (.fin found[k].chi2)
          (by rw [List.getElem?_map, List.getElem?_eq_getElem hj']; rfl)
          (by rw [List.getElem?_map, List.getElem?_eq_getElem hk']; rfl)
        simpa [Ext.sortLe, Ext.le, hj', hk'] using this

end
end Redrock
