import Verif.Props.Fitz

/-!
Where every candidate of `fitz` comes from, and why a minimum of the scan gives none (C15, C16, C58, C66).
-/
set_option linter.unusedSectionVars false
namespace Redrock

section
variable {K : Type} [Field K] [LinearOrder K] [IsStrictOrderedRing K]

/-- the redshift `fitzFinish` takes: the vertex, or the best point of the fine grid -/
private theorem fitzFinish_cases (E : FitEnv K) (redshifts zz zzchi2 : List K) (results : List (Cand K))
    (zmin sigma chi2min : K) (zwarn : Nat) (coeff : List K) (tr : Option K) (res : List (Cand K))
    (h : fitzFinish E redshifts zz zzchi2 results zmin sigma chi2min zwarn coeff tr = .ok res) :
    ∃ (zfirst zlast z1 zm2 zbest : K) (zw1 : Nat) (chi2pre : K),
      npGet zz 0 = .ok zfirst ∧ npGetNeg zz 1 = .ok zlast ∧ npGet redshifts 1 = .ok z1 ∧ npGetNeg redshifts 2 = .ok zm2 ∧
      ((zfirst ≤ zmin ∧ zmin ≤ zlast ∧ zbest = zmin ∧ zw1 = zwarn ∧ chi2pre = chi2min) ∨
       ((zmin < zfirst ∨ zlast < zmin) ∧ zw1 = zwarn ||| ZW.BAD_MINFIT ∧
          ∃ k, npArgmin zzchi2 = .ok k ∧ npGet zz k = .ok zbest ∧ npGet zzchi2 k = .ok chi2pre)) ∧
      ((res = results ∧ ∃ p ∈ results, |getDv zbest p.z| < maxVeloDiff E.isStar) ∨
       ∃ c : Cand K, res = results ++ [c] ∧ (∀ p ∈ results, maxVeloDiff E.isStar ≤ |getDv zbest p.z|) ∧ c.z = zbest ∧ c.zerr = sigma ∧
        c.zwarn = (if zmin < z1 ∨ zm2 < zmin then
          (if zbest < z1 ∨ zm2 < zbest then zw1 ||| ZW.Z_FITLIMIT else zw1) ||| ZW.Z_FITLIMIT
          else (if zbest < z1 ∨ zm2 < zbest then zw1 ||| ZW.Z_FITLIMIT else zw1)) ∧
        (E.arch = none → c.coeff = coeff ∧ c.chi2 = chi2pre ∧ c.legcoeff = []) ∧
        (∀ A, E.arch = some A → ∃ all st, A.getBestArchetype tr zbest A.priorSigma = .ok (c.chi2, all, st) ∧ A.priorSigma ≠ none ∧
          (c.coeff, c.legcoeff) = splitArchetypeCoeff st all (if A.perCamera then A.ncamGrids else 1) A.degLegendre)) := by
  unfold fitzFinish at h
  obtain ⟨zfirst, hf, h⟩ := Except.bind_ok _ _ _ h
  obtain ⟨zlast, hl, h⟩ := Except.bind_ok _ _ _ h
  obtain ⟨⟨zbest, chi2pre, zw1⟩, hb, h⟩ := Except.bind_ok _ _ _ h
  obtain ⟨z1, h1, h⟩ := Except.bind_ok _ _ _ h
  obtain ⟨zm2, h2, h⟩ := Except.bind_ok _ _ _ h
  dsimp only at h
  have hcase : (zfirst ≤ zmin ∧ zmin ≤ zlast ∧ zbest = zmin ∧ zw1 = zwarn ∧ chi2pre = chi2min) ∨
      ((zmin < zfirst ∨ zlast < zmin) ∧ zw1 = zwarn ||| ZW.BAD_MINFIT ∧
        ∃ k, npArgmin zzchi2 = .ok k ∧ npGet zz k = .ok zbest ∧ npGet zzchi2 k = .ok chi2pre) := by
    split at hb
    · rename_i hout
      right
      obtain ⟨k, hk, hb⟩ := Except.bind_ok _ _ _ hb
      obtain ⟨zb, hzb, hb⟩ := Except.bind_ok _ _ _ hb
      obtain ⟨cb, hcb, hb⟩ := Except.bind_ok _ _ _ hb
      cases hb
      exact ⟨hout, rfl, k, hk, hzb, hcb⟩
    · rename_i hin
      left
      cases hb
      rw [not_or, not_lt, not_lt] at hin
      exact ⟨hin.1, hin.2, rfl, rfl, rfl⟩
  refine ⟨zfirst, zlast, z1, zm2, zbest, zw1, chi2pre, hf, hl, h1, h2, hcase, ?_⟩
  split at h
  · rename_i hany
    left
    rw [List.any_eq_true] at hany
    obtain ⟨p, hp, hd⟩ := hany
    cases h
    exact ⟨rfl, p, hp, by simpa using hd⟩
  · rename_i hany
    right
    have hsep : ∀ p ∈ results, maxVeloDiff E.isStar ≤ |getDv zbest p.z| := by
      intro p hp
      by_contra hc
      apply hany
      rw [List.any_eq_true]
      exact ⟨p, hp, by simpa using not_le.1 hc⟩
    cases harch : E.arch with
    | none =>
      rw [harch] at h
      simp only [pure, Except.pure, Except.ok.injEq] at h
      exact ⟨_, h.symm, hsep, rfl, rfl, rfl, fun _ => ⟨rfl, rfl, rfl⟩, fun A hA => by cases hA⟩
    | some A =>
      rw [harch] at h
      obtain ⟨⟨ca, aa, st⟩, hg, h⟩ := Except.bind_ok _ _ _ h
      dsimp only at h
      cases hps : A.priorSigma with
      | none => rw [hps] at h; cases h
      | some s =>
        rw [hps] at h hg
        simp only [Option.map_some, pure, Except.pure, Except.ok.injEq] at h
        refine ⟨_, h.symm, hsep, rfl, rfl, rfl, (fun hn => by cases hn), ?_⟩
        intro A' hA'
        cases hA'
        exact ⟨aa, st, by rw [hps]; exact hg, by rw [hps]; simp, rfl⟩

/-- one pass of the loop body: the coarse minimum is too close to an earlier candidate, or the refinement runs -/
private theorem fitzBody_cases (E : FitEnv K) (n : Nat) (redshifts : List K) (results : List (Cand K)) (imin : Nat)
    (res : List (Cand K)) (h : fitzBody E n redshifts results imin = .ok res) :
    ∃ zi, npGet redshifts imin = .ok zi ∧ ((res = results ∧ ∃ p ∈ results, |getDv zi p.z| < maxVeloDiff E.isStar) ∨
      ((∀ p ∈ results, maxVeloDiff E.isStar ≤ |getDv zi p.z|) ∧ ∃ zlo zhi zzchi2 am zmin sigma chi2min zwarn zwarn' coeff tr,
      npGet redshifts (imin - 1) = .ok zlo ∧ npGet redshifts (min (imin + 1) (n - 1)) = .ok zhi ∧
      E.scan (linspace zlo zhi E.nz) = .ok zzchi2 ∧ npArgmin zzchi2 = .ok am ∧
      E.minfit (pySlice (linspace zlo zhi E.nz) (min (max (am : Int) 1) ((E.nz : Int) - 2) - 1) (min (max (am : Int) 1) ((E.nz : Int) - 2) + 2))
        (pySlice zzchi2 (min (max (am : Int) 1) ((E.nz : Int) - 2) - 1) (min (max (am : Int) 1) ((E.nz : Int) - 2) + 2))
        = .ok (zmin, sigma, chi2min, zwarn) ∧
      ((E.fitAt zmin = .ok coeff ∧ tr = some zmin ∧ zwarn' = zwarn) ∨
        (E.fitAt zmin = .error .valueError ∧ tr = none ∧ coeff = List.replicate E.nbasis 0 ∧
          zwarn' = zwarn ||| ZW.Z_FITLIMIT ||| ZW.BAD_MINFIT)) ∧
      fitzFinish E redshifts (linspace zlo zhi E.nz) zzchi2 results zmin sigma chi2min zwarn' coeff tr = .ok res)) := by
  unfold fitzBody at h
  obtain ⟨zi, hzi, h⟩ := Except.bind_ok _ _ _ h
  refine ⟨zi, hzi, ?_⟩
  dsimp only at h
  split at h
  · rename_i hany
    left
    rw [List.any_eq_true] at hany
    obtain ⟨p, hp, hd⟩ := hany
    cases h
    exact ⟨rfl, p, hp, by simpa using hd⟩
  · rename_i hany
    right
    refine ⟨?_, ?_⟩
    · intro p hp
      by_contra hc
      apply hany
      rw [List.any_eq_true]
      exact ⟨p, hp, by simpa using not_le.1 hc⟩
    obtain ⟨zlo, hlo, h⟩ := Except.bind_ok _ _ _ h
    obtain ⟨zhi, hhi, h⟩ := Except.bind_ok _ _ _ h
    obtain ⟨zzchi2, hsc, h⟩ := Except.bind_ok _ _ _ h
    obtain ⟨am, ham, h⟩ := Except.bind_ok _ _ _ h
    obtain ⟨⟨zmin, sigma, chi2min, zwarn⟩, hmf, h⟩ := Except.bind_ok _ _ _ h
    rw [linspace_length] at hmf
    dsimp only at h
    split at h
    · rename_i coeff hfit
      exact ⟨zlo, zhi, zzchi2, am, zmin, sigma, chi2min, zwarn, zwarn, coeff, some zmin, hlo, hhi, hsc, ham, hmf,
        Or.inl ⟨hfit, rfl, rfl⟩, h⟩
    · rename_i hfit
      obtain ⟨z0, _, h⟩ := Except.bind_ok _ _ _ h
      obtain ⟨zl, _, h⟩ := Except.bind_ok _ _ _ h
      split at h
      · exact ⟨zlo, zhi, zzchi2, am, zmin, sigma, chi2min, zwarn, _, _, none, hlo, hhi, hsc, ham, hmf,
          Or.inr ⟨hfit, rfl, rfl, rfl⟩, h⟩
      · cases h
    · cases h

/-- invariant rule that also sees which minima have been visited -/
private theorem fitzLoop_rule (E : FitEnv K) (nminima n : Nat) (redshifts : List K) (Inv : List Nat → List (Cand K) → Prop)
    (minima : List Nat) (hstep : ∀ done imin res res', imin ∈ minima → Inv done res → res.length ≠ nminima → fitzBody E n redshifts res imin = .ok res' → Inv (done ++ [imin]) res')
    (done : List Nat) (res res' : List (Cand K)) (h0 : Inv done res) (h : fitzLoop E nminima n redshifts minima res = .ok res') :
    ∃ done', done' <+: done ++ minima ∧ Inv done' res' ∧ (done' = done ++ minima ∨ res'.length = nminima) := by
  induction minima generalizing done res with
  | nil =>
    simp only [fitzLoop, Except.ok.injEq] at h
    subst h
    exact ⟨done, by simp, h0, Or.inl (by simp)⟩
  | cons i rest ih =>
    rw [fitzLoop] at h
    split at h
    · rename_i hlen
      cases h
      exact ⟨done, List.prefix_append _ _, h0, Or.inr hlen⟩
    · rename_i hne
      obtain ⟨r1, h1, h2⟩ := Except.bind_ok _ _ _ h
      have := ih (fun d j r r' hj => hstep d j r r' (List.mem_cons_of_mem _ hj)) (done ++ [i]) r1 (hstep done i _ _ List.mem_cons_self h0 hne h1) h2
      simpa using this

/-- the first and last fine-grid redshift and the bracket of the refined redshift -/
private theorem bracket (redshifts : List K) (hz : redshifts.Pairwise (· ≤ ·)) (nz imin : Nat) (hnz : 2 ≤ nz) (zi zlo zhi zfirst zlast zmin zbest : K)
    (hi : npGet redshifts imin = .ok zi)
    (hlo : npGet redshifts (imin - 1) = .ok zlo) (hhi : npGet redshifts (min (imin + 1) (redshifts.length - 1)) = .ok zhi)
    (hf : npGet (linspace zlo zhi nz) 0 = .ok zfirst) (hl : npGetNeg (linspace zlo zhi nz) 1 = .ok zlast)
    (hcase : (zfirst ≤ zmin ∧ zmin ≤ zlast ∧ zbest = zmin) ∨ ∃ k, npGet (linspace zlo zhi nz) k = .ok zbest) : zlo ≤ zbest ∧ zbest ≤ zhi := by
  have hmono : ∀ (a b : Nat) (va vb : K), a ≤ b → redshifts[a]? = some va → redshifts[b]? = some vb → va ≤ vb := by
    intro a b va vb hab ha hb
    rw [List.getElem?_eq_some_iff] at ha hb
    obtain ⟨ha1, rfl⟩ := ha
    obtain ⟨hb1, rfl⟩ := hb
    rcases Nat.lt_or_eq_of_le hab with hlt | rfl
    · exact List.pairwise_iff_getElem.1 hz a b ha1 hb1 hlt
    · exact le_refl _
  rw [npGet_ok] at hlo hhi hi
  have hlohi : zlo ≤ zhi := by
    refine hmono _ _ _ _ ?_ hlo hhi
    rw [List.getElem?_eq_some_iff] at hi
    obtain ⟨hi, _⟩ := hi
    omega
  have hzf := linspace_first _ _ _ _ hf
  have hzl := linspace_last _ _ _ hnz _ hl
  subst hzf hzl
  rcases hcase with ⟨ha, hb, hc⟩ | ⟨k, hk⟩
  · rw [hc]; exact ⟨ha, hb⟩
  · rw [npGet_ok] at hk
    exact linspace_mem _ _ hlohi _ _ hnz _ hk

/-- Specification: `z` is less than the velocity limit of the template type (100 km/s for stars, 1000 km/s otherwise) away from `zref`. -/
def TooClose (isStar : Bool) (z zref : K) : Prop := |299792458 / 1000 * (z - zref) / (1 + zref)| < (if isStar then 100 else 1000)

/-- Specification: the reported chi2, coefficients and flags of candidate `c` are those of a refinement around scan minimum number `imin`. -/
def RefinedAt (E : FitEnv K) (redshifts : List K) (imin : Nat) (c : Cand K) : Prop :=
  ∃ zlo zhi zz zzchi2 am zmin chi2min coeff zwarn tr,
    -- the fine grid spans the coarse neighbours
    redshifts[imin - 1]? = some zlo ∧ redshifts[min (imin + 1) (redshifts.length - 1)]? = some zhi ∧ zz = linspace zlo zhi E.nz ∧ E.scan zz = .ok zzchi2 ∧
    -- a parabola through the three points around its minimum
    npArgmin zzchi2 = .ok am ∧
    E.minfit (pySlice zz (min (max (am : Int) 1) ((E.nz : Int) - 2) - 1) (min (max (am : Int) 1) ((E.nz : Int) - 2) + 2))
      (pySlice zzchi2 (min (max (am : Int) 1) ((E.nz : Int) - 2) - 1) (min (max (am : Int) 1) ((E.nz : Int) - 2) + 2)) = .ok (zmin, c.zerr, chi2min, zwarn) ∧
    ((E.fitAt zmin = .ok coeff ∧ tr = some zmin) ∨ (E.fitAt zmin = .error .valueError ∧ tr = none ∧ coeff = List.replicate E.nbasis 0 ∧ c.zwarn &&& ZW.BAD_MINFIT ≠ 0 ∧ c.zwarn &&& ZW.Z_FITLIMIT ≠ 0)) ∧
    -- the vertex, or the best fine-grid point with the flag BAD_MINFIT
    ((c.z = zmin ∧ (E.arch = none → c.chi2 = chi2min)) ∨
      (c.zwarn &&& ZW.BAD_MINFIT ≠ 0 ∧ zz[am]? = some c.z ∧ (E.arch = none → zzchi2[am]? = some c.chi2))) ∧
    (E.arch = none → c.coeff = coeff ∧ c.legcoeff = []) ∧
    -- archetypes: evaluated at the reported redshift, but with the IGM transmission of the vertex (C128), or with none
    (∀ A, E.arch = some A → ∃ all st, A.getBestArchetype tr c.z A.priorSigma = .ok (c.chi2, all, st) ∧
      (c.coeff, c.legcoeff) = splitArchetypeCoeff st all (if A.perCamera then A.ncamGrids else 1) A.degLegendre)

private theorem or_and_ne (w b : Nat) (hb : b &&& b ≠ 0) : (w ||| b) &&& b ≠ 0 := by
  rw [Nat.and_or_distrib_right]
  intro h0
  exact hb (Nat.or_eq_zero_iff.1 h0).2

private theorem or_left_ne (w v b : Nat) (h : w &&& b ≠ 0) : (w ||| v) &&& b ≠ 0 := by
  rw [Nat.and_or_distrib_right]
  intro h0
  exact h (Nat.or_eq_zero_iff.1 h0).1

/-- **C66** (and C15, C58) the trace of `fitz`: the candidates, in the order they were found, belong to distinct minima of the scan visited in the order of `find_minima`; each one is the result of
the refinement around its minimum; both the coarse minimum and the refined redshift are at least the velocity limit away from every earlier candidate; and a minimum of the scan gives no candidate only if
`nminima` candidates were found, or if the minimum or its refined redshift (between its coarse neighbours) is too close to a reported candidate. -/
theorem C66_no_minimum_dropped (argsort : List (Ext K) → List Nat) (harg : IsArgsort Ext.sortLe argsort) (E : FitEnv K) (hnz : 2 ≤ E.nz)
    (nminima : Nat) (zchi2 : List (Ext K)) (redshifts : List K) (hz : redshifts.Pairwise (· ≤ ·)) (r : List (Cand K))
    (h : fitz argsort E nminima zchi2 redshifts = .ok r) :
    ∃ found : List (Cand K × Nat), (found.map (·.1)).Perm r ∧
      (∃ minima, findMinima argsort zchi2 = .ok minima ∧ (found.map (·.2)).Sublist minima) ∧
      (∀ ci ∈ found, IsLocalMin zchi2 ci.2 ∧ RefinedAt E redshifts ci.2 ci.1) ∧
      found.Pairwise (fun earlier later => ¬ TooClose E.isStar later.1.z earlier.1.z ∧ ∀ zi, redshifts[later.2]? = some zi → ¬ TooClose E.isStar zi earlier.1.z) ∧
      (r.length < nminima → ∀ i, IsLocalMin zchi2 i → i ∈ found.map (·.2) ∨ ∃ c ∈ r, (∃ zi, redshifts[i]? = some zi ∧ TooClose E.isStar zi c.z) ∨
        ∃ zlo zhi zb, redshifts[i - 1]? = some zlo ∧ redshifts[min (i + 1) (redshifts.length - 1)]? = some zhi ∧ zlo ≤ zb ∧ zb ≤ zhi ∧ TooClose E.isStar zb c.z) := by
  obtain ⟨hlen, minima, found, hm, hl, hp, hs⟩ := fitz_spec argsort harg E nminima zchi2 redshifts r h
  have hne : zchi2 ≠ [] := by
    rintro rfl
    rw [C12_empty_raises] at hm
    cases hm
  obtain ⟨minima', hm', _, hloc, _⟩ := C12_find_minima argsort harg zchi2 hne
  rw [hm] at hm'; cases hm'
  have hclose : ∀ z zr : K, |getDv z zr| < maxVeloDiff E.isStar ↔ TooClose E.isStar z zr := by
    intro z zr; unfold TooClose getDv speedOfLightKms maxVeloDiff; exact Iff.rfl
  have key := fitzLoop_rule E nminima zchi2.length redshifts
    (fun done res => ∃ ann : List (Cand K × Nat), ann.map (·.1) = res ∧ (ann.map (·.2)).Sublist done ∧
      (∀ ci ∈ ann, IsLocalMin zchi2 ci.2 ∧ RefinedAt E redshifts ci.2 ci.1) ∧
      ann.Pairwise (fun earlier later => ¬ TooClose E.isStar later.1.z earlier.1.z ∧ ∀ zi, redshifts[later.2]? = some zi → ¬ TooClose E.isStar zi earlier.1.z) ∧
      (∀ i ∈ done, i ∈ ann.map (·.2) ∨ ∃ c ∈ res, (∃ zi, redshifts[i]? = some zi ∧ TooClose E.isStar zi c.z) ∨
        ∃ zlo zhi zb, redshifts[i - 1]? = some zlo ∧ redshifts[min (i + 1) (redshifts.length - 1)]? = some zhi ∧ zlo ≤ zb ∧ zb ≤ zhi ∧ TooClose E.isStar zb c.z))
    minima
    (by
        rintro done imin res res' himin ⟨ann, h1, h2, h3, h4, h5⟩ _ hb
        obtain ⟨zi, hzi, hcase⟩ := fitzBody_cases E _ redshifts res imin res' hb
        rcases hcase with ⟨rfl, p, hpm, hd⟩ | ⟨hsepi, zlo, zhi, zzchi2, am, zmin, sigma, chi2min, zwarn, zwarn', coeff, tr, hlo, hhi, hsc, ham, hmf, hfit, hfin⟩
        · refine ⟨ann, h1, h2.trans (List.sublist_append_left _ _), h3, h4, ?_⟩
          intro i hi
          rcases List.mem_append.1 hi with hi | hi
          · exact h5 i hi
          · rw [List.mem_singleton] at hi
            subst hi
            exact Or.inr ⟨p, hpm, Or.inl ⟨zi, (npGet_ok _ _ _).1 hzi, (hclose _ _).1 hd⟩⟩
        · rw [hlen] at hhi
          obtain ⟨zfirst, zlast, z1, zm2, zbest, zw1, chi2pre, g1, g2, g3, g4, g5, g6⟩ := fitzFinish_cases E _ _ _ _ _ _ _ _ _ _ _ hfin
          have hbr := bracket redshifts hz E.nz imin hnz zi zlo zhi zfirst zlast zmin zbest hzi hlo hhi g1 g2 (by
            rcases g5 with ⟨a, b, c, _⟩ | ⟨_, _, k, _, c, _⟩
            · exact Or.inl ⟨a, b, c⟩
            · exact Or.inr ⟨k, c⟩)
          rcases g6 with ⟨rfl, p, hpm, hd⟩ | ⟨c, rfl, hsep, cz, cerr, cw, cn, ca⟩
          · refine ⟨ann, h1, h2.trans (List.sublist_append_left _ _), h3, h4, ?_⟩
            intro i hi
            rcases List.mem_append.1 hi with hi | hi
            · exact h5 i hi
            · rw [List.mem_singleton] at hi
              subst hi
              exact Or.inr ⟨p, hpm, Or.inr ⟨zlo, zhi, zbest, (npGet_ok _ _ _).1 hlo, (npGet_ok _ _ _).1 hhi, hbr.1, hbr.2, (hclose _ _).1 hd⟩⟩
          · have hzw : ∀ b, b &&& b ≠ 0 → zw1 &&& b ≠ 0 → c.zwarn &&& b ≠ 0 := by
              intro b _ hw
              rw [cw]
              split <;> split
              · exact or_left_ne _ _ _ (or_left_ne _ _ _ hw)
              · exact or_left_ne _ _ _ hw
              · exact or_left_ne _ _ _ hw
              · exact hw
            have hzw' : ∀ b, zwarn' &&& b ≠ 0 → zw1 &&& b ≠ 0 := by
              intro b hw
              rcases g5 with ⟨_, _, _, e, _⟩ | ⟨_, e, _⟩
              · rw [e]; exact hw
              · rw [e]; exact or_left_ne _ _ _ hw
            have hbad : ZW.BAD_MINFIT &&& ZW.BAD_MINFIT ≠ 0 := by decide
            have hlim : ZW.Z_FITLIMIT &&& ZW.Z_FITLIMIT ≠ 0 := by decide
            refine ⟨ann ++ [(c, imin)], by simp [h1], by simpa using h2.append (List.Sublist.refl [imin]), ?_, ?_, ?_⟩
            · intro ci hci
              rcases List.mem_append.1 hci with hci | hci
              · exact h3 ci hci
              · rw [List.mem_singleton] at hci
                subst hci
                refine ⟨(hloc imin).1 himin, zlo, zhi, _, zzchi2, am, zmin, chi2min, coeff, zwarn, tr, (npGet_ok _ _ _).1 hlo, (npGet_ok _ _ _).1 hhi, rfl, hsc, ham, ?_, ?_, ?_, ?_, ?_⟩
                · rw [cerr]; exact hmf
                · rcases hfit with ⟨e, et, _⟩ | ⟨e, et, e2, e3⟩
                  · exact Or.inl ⟨e, et⟩
                  · refine Or.inr ⟨e, et, e2, hzw _ hbad (hzw' _ ?_), hzw _ hlim (hzw' _ ?_)⟩
                    · rw [e3]; exact or_and_ne _ _ hbad
                    · rw [e3]; exact or_left_ne _ _ _ (or_and_ne _ _ hlim)
                · rcases g5 with ⟨_, _, e1, e2, e3⟩ | ⟨_, e, k, hk, hk1, hk2⟩
                  · exact Or.inl ⟨cz.trans e1, fun hn => (cn hn).2.1.trans e3⟩
                  · rw [ham] at hk
                    cases hk
                    refine Or.inr ⟨hzw _ hbad (by rw [e]; exact or_and_ne _ _ hbad), by rw [cz]; exact (npGet_ok _ _ _).1 hk1, fun hn => by rw [(cn hn).2.1]; exact (npGet_ok _ _ _).1 hk2⟩
                · intro hn
                  exact ⟨(cn hn).1, (cn hn).2.2⟩
                · intro A hA
                  obtain ⟨all, st, q1, _, q2⟩ := ca A hA
                  exact ⟨all, st, by rw [cz]; exact q1, q2⟩
            · rw [List.pairwise_append]
              refine ⟨h4, List.pairwise_singleton _ _, ?_⟩
              intro a ha b hb
              rw [List.mem_singleton] at hb
              subst hb
              have ham' : a.1 ∈ res := by rw [← h1]; exact List.mem_map_of_mem ha
              refine ⟨?_, ?_⟩
              · rw [← hclose, not_lt, cz]
                exact hsep _ ham'
              · intro zi' hzi'
                rw [(npGet_ok _ _ _).1 hzi] at hzi'
                cases hzi'
                rw [← hclose, not_lt]
                exact hsepi _ ham'
            · intro i hi
              rcases List.mem_append.1 hi with hi | hi
              · rcases h5 i hi with g | ⟨c', hc', g⟩
                · left; rw [List.map_append]; exact List.mem_append_left _ g
                · exact Or.inr ⟨c', List.mem_append_left _ hc', g⟩
              · left
                rw [List.mem_singleton] at hi
                subst hi
                simp)
    [] [] found ⟨[], rfl, List.Sublist.refl _, by simp, List.Pairwise.nil, by simp⟩ hl
  obtain ⟨done, hpre, ⟨ann, ha1, ha2, ha3, ha4, ha5⟩, hend⟩ := key
  refine ⟨ann, by rw [ha1]; exact hp, ⟨minima, hm, ?_⟩, ha3, ha4, ?_⟩
  · rw [List.nil_append] at hpre
    exact ha2.trans hpre.sublist
  · intro hlt i hi
    have hd : done = minima := by
      rcases hend with e | e
      · simpa using e
      · rw [hp.length_eq] at e; omega
    rcases ha5 i (by rw [hd]; exact (hloc i).2 hi) with g | ⟨c, hc, g⟩
    · exact Or.inl g
    · exact Or.inr ⟨c, hp.mem_iff.1 hc, g⟩

/-- **C58** (origin of every candidate, also of flagged ones and of archetype fits) every candidate is the result of the refinement around a local minimum of the scan. -/
theorem C58_origin (argsort : List (Ext K) → List Nat) (harg : IsArgsort Ext.sortLe argsort) (E : FitEnv K) (hnz : 2 ≤ E.nz)
    (nminima : Nat) (zchi2 : List (Ext K)) (redshifts : List K) (hz : redshifts.Pairwise (· ≤ ·)) (r : List (Cand K))
    (h : fitz argsort E nminima zchi2 redshifts = .ok r) : ∀ c ∈ r, ∃ imin, IsLocalMin zchi2 imin ∧ RefinedAt E redshifts imin c := by
  obtain ⟨found, h1, _, h3, _⟩ := C66_no_minimum_dropped argsort harg E hnz nminima zchi2 redshifts hz r h
  intro c hc
  obtain ⟨ci, hci, rfl⟩ := List.mem_map.1 (h1.mem_iff.2 hc)
  exact ⟨ci.2, h3 ci hci⟩

private theorem minfit_zwarn (sqrt : K → K) (polyfit : List K → List K → Py (K × K × K)) (x y : List K) (x0 xerr y0 : K) (zw : Nat)
    (h : minfit sqrt polyfit x y = .ok (x0, xerr, y0, zw)) : zw = 0 ∨ zw = ZW.BAD_MINFIT := by
  unfold minfit at h
  split at h
  · cases h; right; rfl
  · split at h
    · cases h; right; rfl
    · cases h
    · split at h
      · cases h; right; rfl
      · obtain ⟨_, _, h⟩ := Except.bind_ok _ _ _ h
        obtain ⟨_, _, h⟩ := Except.bind_ok _ _ _ h
        dsimp only at h
        split at h
        · cases h
          split <;> split <;> decide
        · cases h
          split <;> split <;> decide

/-- **C16** exactly when `Z_FITLIMIT` is set: for a candidate without `BAD_MINFIT`, when its redshift is below the second or above the second-to-last grid redshift, and in no other case. -/
theorem C16_fitlimit_exact (argsort : List (Ext K) → List Nat) (harg : IsArgsort Ext.sortLe argsort) (E : FitEnv K)
    (sqrt : K → K) (polyfit : List K → List K → Py (K × K × K)) (hE : E.minfit = minfit sqrt polyfit)
    (nminima : Nat) (zchi2 : List (Ext K)) (redshifts : List K) (r : List (Cand K))
    (h : fitz argsort E nminima zchi2 redshifts = .ok r) :
    ∀ c ∈ r, c.zwarn &&& ZW.BAD_MINFIT = 0 → ∃ z1 z2, redshifts[1]? = some z1 ∧ redshifts[redshifts.length - 2]? = some z2 ∧
      (c.zwarn &&& ZW.Z_FITLIMIT ≠ 0 ↔ c.z < z1 ∨ z2 < c.z) := by
  obtain ⟨hlen, minima, found, hm, hl, hp, hs⟩ := fitz_spec argsort harg E nminima zchi2 redshifts r h
  suffices hfound : ∀ c ∈ found, c.zwarn &&& ZW.BAD_MINFIT = 0 → ∃ z1 z2, redshifts[1]? = some z1 ∧ redshifts[redshifts.length - 2]? = some z2 ∧
      (c.zwarn &&& ZW.Z_FITLIMIT ≠ 0 ↔ c.z < z1 ∨ z2 < c.z) from fun c hc => hfound c (hp.mem_iff.2 hc)
  refine fitzLoop_induction E nminima zchi2.length redshifts (fun res => ∀ c ∈ res, c.zwarn &&& ZW.BAD_MINFIT = 0 → ∃ z1 z2, redshifts[1]? = some z1 ∧ redshifts[redshifts.length - 2]? = some z2 ∧
      (c.zwarn &&& ZW.Z_FITLIMIT ≠ 0 ↔ c.z < z1 ∨ z2 < c.z)) minima ?_ [] found (by simp) hl
  intro imin himin res res' hP _ hb
  obtain ⟨zi, hzi, hcase⟩ := fitzBody_cases E _ redshifts res imin res' hb
  rcases hcase with ⟨rfl, _⟩ | ⟨_, zlo, zhi, zzchi2, am, zmin, sigma, chi2min, zwarn, zwarn', coeff, tr, hlo, hhi, hsc, ham, hmf, hfit, hfin⟩
  · exact hP
  obtain ⟨zfirst, zlast, z1, zm2, zbest, zw1, chi2pre, g1, g2, g3, g4, g5, g6⟩ := fitzFinish_cases E _ _ _ _ _ _ _ _ _ _ _ hfin
  rcases g6 with ⟨rfl, _⟩ | ⟨c, rfl, hsep, cz, cerr, cw, _⟩
  · exact hP
  intro c' hc' hgood
  rcases List.mem_append.1 hc' with hc' | hc'
  · exact hP c' hc' hgood
  rw [List.mem_singleton] at hc'
  subst hc'
  refine ⟨z1, zm2, (npGet_ok _ _ _).1 g3, ((npGetNeg_ok _ _ _).1 g4).2, ?_⟩
  have hbad : ZW.BAD_MINFIT &&& ZW.BAD_MINFIT ≠ 0 := by decide
  have hlim : ZW.Z_FITLIMIT &&& ZW.Z_FITLIMIT ≠ 0 := by decide
  have hzw1 : zw1 &&& ZW.BAD_MINFIT = 0 := by
    by_contra hne
    apply absurd hgood
    rw [cw]
    split <;> split
    · exact or_left_ne _ _ _ (or_left_ne _ _ _ hne)
    · exact or_left_ne _ _ _ hne
    · exact or_left_ne _ _ _ hne
    · exact hne
  rcases g5 with ⟨_, _, e1, e2, _⟩ | ⟨_, e, _⟩
  · have hw0 : zw1 = 0 := by
      rw [e2]
      rcases hfit with ⟨_, _, e3⟩ | ⟨_, _, _, e3⟩
      · rw [e3]
        rw [e2, e3] at hzw1
        rw [hE] at hmf
        have := minfit_zwarn sqrt polyfit _ _ _ _ _ _ hmf
        rcases this with e | e
        · exact e
        · rw [e] at hzw1; exact absurd hzw1 hbad
      · rw [e2, e3] at hzw1
        exact absurd hzw1 (or_and_ne _ _ hbad)
    rw [cw, cz, e1, hw0]
    by_cases hc : zmin < z1 ∨ zm2 < zmin
    · simp only [iff_true, hc]
      exact or_and_ne _ _ hlim
    · simp only [hc, iff_false, not_not]
      decide
  · rw [e] at hzw1
    exact absurd hzw1 (or_and_ne _ _ hbad)

end

/-- the hypotheses of C66 and C58_origin are met by a run that returns a candidate -/
example : 2 ≤ (demoEnv none).nz ∧ ([0, 1/2, 2] : List ℚ).Pairwise (· ≤ ·) ∧
    fitz (stableArgsort Ext.sortLe) (demoEnv none) 3 ([17/4, 4, 25/4].map .fin) [0, 1/2, 2] = .ok [⟨1/2, 1, 0, 4, [1/2], []⟩] := by
  refine ⟨by decide, by decide +kernel, by decide +kernel⟩

end Redrock
