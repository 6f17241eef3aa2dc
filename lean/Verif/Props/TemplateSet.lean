import Verif.Props.SameData
import Verif.Props.DeltaChi2
import Verif.Props.Flags
import Verif.Props.Table

/-!
Properties C114 (the order of the templates does not matter), C115 (the rows of one spectral type do not depend on the templates of other types), C116 (more templates never give a worse best fit).

`measureTarget` (`Verif/Model/Measure.lean`) has one entry per template; `zfind` keeps the results in a dictionary by full type, so the templates here have distinct full types (for equal ones see C30).
-/
set_option linter.unusedSectionVars false

namespace Redrock

/-! ### stable sorting of permuted blocks -/

/-- A list sorted by a key is determined by its parts with equal keys. -/
theorem sorted_eq_of_filters {α κ : Type} [LinearOrder κ] (key : α → κ) : ∀ (A B : List α), A.Pairwise (fun a b => key a ≤ key b) → B.Pairwise (fun a b => key a ≤ key b) →
    (∀ k, A.filter (fun a => decide (key a = k)) = B.filter (fun a => decide (key a = k))) → A = B
  | [], B, _, _, h => by
    cases B with
    | nil => rfl
    | cons b B => have := h (key b); simp at this
  | a :: A, [], _, _, h => by have := h (key a); simp at this
  | a :: A, b :: B, hA, hB, h => by
    rw [List.pairwise_cons] at hA hB
    have hab : key a = key b := by
      have h1 : a ∈ (b :: B).filter (fun x => decide (key x = key a)) := by rw [← h]; simp
      have h2 : b ∈ (a :: A).filter (fun x => decide (key x = key b)) := by rw [h]; simp
      refine le_antisymm ?_ ?_
      · rcases List.mem_cons.1 (List.mem_filter.1 h2).1 with e | e
        · rw [e]
        · exact hA.1 b e
      · rcases List.mem_cons.1 (List.mem_filter.1 h1).1 with e | e
        · rw [e]
        · exact hB.1 a e
    have e : a = b := by
      have := h (key a)
      rw [List.filter_cons_of_pos (by simp), List.filter_cons_of_pos (by simp [hab])] at this
      exact (List.cons.inj this).1
    subst e
    rw [sorted_eq_of_filters key A B hA.2 hB.2 ?_]
    intro k
    have := h k
    rw [List.filter_cons, List.filter_cons] at this
    split at this
    · exact (List.cons.inj this).2
    · exact this

/-- Blocks of which at most one has elements of a kind may be permuted without changing the order of these elements. -/
theorem flatMap_filter_perm {α β : Type} (g : α → List β) (p : β → Bool) {l l' : List α} (h : l.Perm l') :
    l.Pairwise (fun x y => (g x).filter p = [] ∨ (g y).filter p = []) → (l.flatMap g).filter p = (l'.flatMap g).filter p := by
  induction h with
  | nil => intro _; rfl
  | cons x h ih =>
    intro hp
    rw [List.pairwise_cons] at hp
    rw [List.flatMap_cons, List.flatMap_cons, List.filter_append, List.filter_append, ih hp.2]
  | swap x y l =>
    intro hp
    rw [List.pairwise_cons] at hp
    have := hp.1 x (by simp)
    simp only [List.flatMap_cons, List.filter_append]
    rcases this with h | h <;> simp [h]
  | trans h1 _ ih1 ih2 =>
    intro hp
    rw [ih1 hp, ih2 ((h1.pairwise_iff (fun {x y} hxy => hxy.symm)).1 hp)]

theorem pyMaxNat_iff (L : List Nat) (m : Nat) : pyMaxNat L = .ok m ↔ m ∈ L ∧ ∀ x ∈ L, x ≤ m := by
  cases L with
  | nil => simp [pyMaxNat]
  | cons v vs =>
    have key : ∀ (vs : List Nat) (v : Nat), vs.foldl max v ∈ v :: vs ∧ ∀ x ∈ v :: vs, x ≤ vs.foldl max v := by
      intro vs
      induction vs with
      | nil => intro v; simp
      | cons w ws ih =>
        intro v
        obtain ⟨h1, h2⟩ := ih (max v w)
        rw [List.foldl_cons]
        refine ⟨?_, ?_⟩
        · rcases List.mem_cons.1 h1 with h | h
          · rcases max_choice v w with e | e <;> rw [h, e] <;> simp
          · simp [h]
        · have h3 := h2 (max v w) (by simp)
          intro x hx
          rcases List.mem_cons.1 hx with rfl | hx
          · exact le_trans (le_max_left _ _) h3
          rcases List.mem_cons.1 hx with rfl | hx
          · exact le_trans (le_max_right _ _) h3
          · exact h2 x (by simp [hx])
    obtain ⟨h1, h2⟩ := key vs v
    show Except.ok _ = Except.ok m ↔ _
    constructor
    · intro h; rw [← Except.ok.inj h]; exact ⟨h1, h2⟩
    · rintro ⟨h3, h4⟩
      rw [le_antisymm (h4 _ h1) (h2 _ h3)]

theorem pyMaxNat_perm {L L' : List Nat} (h : L.Perm L') : pyMaxNat L = pyMaxNat L' := by
  cases hL : pyMaxNat L with
  | ok m =>
    rw [pyMaxNat_iff] at hL
    symm
    rw [pyMaxNat_iff]
    exact ⟨h.mem_iff.1 hL.1, fun x hx => hL.2 x (h.mem_iff.2 hx)⟩
  | error e =>
    cases L with
    | nil => rw [h.symm.eq_nil]; exact hL.symm
    | cons v vs => cases hL

theorem mapM_perm {α β : Type} (f : α → Py β) {l l' : List α} (h : l.Perm l') (r : List β) (hr : l.mapM f = .ok r) : ∃ r', l'.mapM f = .ok r' ∧ r.Perm r' := by
  obtain ⟨r', h1, h2⟩ := List.perm_comp_forall₂ h.symm (mapM_inv f l r hr)
  exact ⟨r', mapM_of_forall₂ f l' r' h1, h2.symm⟩

section
variable {ω K σ : Type} [DecidableEq ω] [Field K] [LinearOrder K] [IsStrictOrderedRing K]

/-- what the table is sorted by -/
def Row.sortKey (r : Row K σ) : Bool ×ₗ K := toLex (r.bad, r.chi2)

theorem notWorse_iff_key (a b : Row K σ) : a.notWorse b ↔ a.sortKey ≤ b.sortKey := by
  unfold Row.notWorse Row.sortKey
  rw [Prod.Lex.le_iff]
  show _ ↔ (a.bad < b.bad ∨ a.bad = b.bad ∧ a.chi2 ≤ b.chi2)
  cases a.bad <;> cases b.bad <;> simp

theorem sortZfit_key (l : List (Row K σ)) : (sortZfit l).Pairwise (fun a b => a.sortKey ≤ b.sortKey) := (sortZfit_sorted l).imp (fun {a b} h => (notWorse_iff_key a b).1 h)

/-- rows with equal keys in the same order: the same sorted table -/
theorem sortZfit_congr {l l' : List (Row K σ)} (h : ∀ k, l.filter (fun r => decide (r.sortKey = k)) = l'.filter (fun r => decide (r.sortKey = k))) : sortZfit l = sortZfit l' := by
  apply sorted_eq_of_filters Row.sortKey _ _ (sortZfit_key l) (sortZfit_key l')
  intro k
  rw [sortZfit_filter, sortZfit_filter, h]

/-- No two of the templates have candidates with the same chi2. -/
def NoTies (fits : List (TemplateFit K σ)) : Prop := fits.Pairwise (fun t t' => ∀ a ∈ t.cands, ∀ b ∈ t'.cands, a.chi2 ≠ b.chi2)

theorem targetTable_perm [LinearOrder σ] (nminima : Nat) (ibad : Row K σ → Bool) {fits fits' : List (TemplateFit K σ)} (h : fits.Perm fits') (hn : NoTies fits) :
    targetTable nminima ibad fits' = targetTable nminima ibad fits := by
  unfold targetTable targetRows
  have hf := h.filter (fun t => decide (t.cands ≠ []))
  have hnf := hn.filter (fun t => decide (t.cands ≠ []))
  generalize fits.filter (fun t => decide (t.cands ≠ [])) = A at hf hnf
  generalize fits'.filter (fun t => decide (t.cands ≠ [])) = B at hf
  dsimp only
  rw [← pyMaxNat_perm (hf.map (·.ncoeff))]
  cases pyMaxNat (A.map (·.ncoeff)) with
  | error e => rfl
  | ok m =>
    show Except.ok _ = Except.ok _
    congr 3
    symm
    apply sortZfit_congr
    intro k
    rw [List.map_flatMap, List.map_flatMap]
    apply flatMap_filter_perm _ _ hf
    refine hnf.imp ?_
    intro t t' htt
    by_contra hc
    push Not at hc
    obtain ⟨r, hr⟩ := List.exists_mem_of_ne_nil _ hc.1
    obtain ⟨r', hr'⟩ := List.exists_mem_of_ne_nil _ hc.2
    rw [List.mem_filter] at hr hr'
    have hk : r.sortKey = r'.sortKey := by
      have h1 := hr.2
      have h2 := hr'.2
      simp only [decide_eq_true_eq] at h1 h2
      rw [h1, h2]
    have hchi : r.chi2 = r'.chi2 := congrArg (fun x => (ofLex x).2) hk
    obtain ⟨q, hq, rfl⟩ := List.mem_map.1 hr.1
    obtain ⟨a, ha, rfl⟩ := List.mem_map.1 hq
    obtain ⟨q', hq', rfl⟩ := List.mem_map.1 hr'.1
    obtain ⟨b, hb, rfl⟩ := List.mem_map.1 hq'
    exact htt a ha b hb hchi

/-- **C114** If no two templates fit the target with the same chi2, the order in which the templates are given does not matter: the table is the same, row by row, and if one run raises, the other does. -/
theorem C114_template_order_partial [LinearOrder σ] (c : MeasureCfg K) (templates templates' : List (Tmpl ω K σ)) (spectra : List (FitSpectrum ω K)) (h : templates.Perm templates')
    (hn : templates.Pairwise (fun tm tm' => ∀ f f', fitTarget c spectra tm = .ok f → fitTarget c spectra tm' = .ok f' → ∀ a ∈ f.cands, ∀ b ∈ f'.cands, a.chi2 ≠ b.chi2)) :
    (∀ rows, measureTarget c templates spectra = .ok rows ↔ measureTarget c templates' spectra = .ok rows) := by
  have key : ∀ (l l' : List (Tmpl ω K σ)), l.Perm l' →
      l.Pairwise (fun tm tm' => ∀ f f', fitTarget c spectra tm = .ok f → fitTarget c spectra tm' = .ok f' → ∀ a ∈ f.cands, ∀ b ∈ f'.cands, a.chi2 ≠ b.chi2) →
      ∀ rows, measureTarget c l spectra = .ok rows → measureTarget c l' spectra = .ok rows := by
    intro l l' hl hp rows hr
    unfold measureTarget at hr ⊢
    cases hm : l.mapM (fitTarget c spectra) with
    | error e => rw [hm] at hr; cases hr
    | ok fits =>
      rw [hm] at hr
      obtain ⟨fits', h1, h2⟩ := mapM_perm _ hl fits hm
      rw [h1]
      show targetTable _ _ fits' = _
      rw [targetTable_perm c.nminima _ h2 ?_]
      · exact hr
      · have hF := mapM_inv _ l fits hm
        clear hm h1 h2 hr hl
        unfold NoTies
        induction hF with
        | nil => exact .nil
        | @cons tm f l fits h1 h2 ih =>
          rw [List.pairwise_cons] at hp ⊢
          refine ⟨?_, ih hp.2⟩
          intro f' hf'
          obtain ⟨i, hi, rfl⟩ := List.mem_iff_getElem.1 hf'
          have hlen := h2.length_eq
          have := (List.forall₂_iff_get.1 h2).2 i (by omega) hi
          exact hp.1 _ (List.getElem_mem (by omega)) f _ h1 this
  intro rows
  exact ⟨key _ _ h hn rows, key _ _ h.symm ((h.pairwise_iff (fun {x y} hxy f f' hf hf' a ha b hb => (hxy f' f hf' hf b hb a ha).symm)).1 hn) rows⟩

/-! ### rows of one spectral type -/

/-- The same coefficients up to zeros at the end. -/
def SameCoeff (c c' : List K) : Prop := ∃ b n m, c = b ++ List.replicate n 0 ∧ c' = b ++ List.replicate m 0

theorem flatMap_filter_key {α β : Type} (g : α → List β) (p : β → Bool) (q : α → Bool) (h : ∀ x, ∀ y ∈ g x, p y = q x) (l : List α) : (l.flatMap g).filter p = (l.filter q).flatMap g := by
  induction l with
  | nil => rfl
  | cons x l ih =>
    rw [List.flatMap_cons, List.filter_append, ih, List.filter_cons]
    by_cases hq : q x = true
    · rw [if_pos hq, List.flatMap_cons, List.filter_eq_self.2 (fun y hy => by rw [h x y hy, hq])]
    · rw [if_neg hq, List.filter_eq_nil_iff.2 (fun y hy => by rw [h x y hy]; exact hq), List.nil_append]

/-- what the user sees of a row apart from its number and its comparison with other rows: everything but `znum`, `deltachi2` and the flag `SMALL_DELTA_CHI2` (bit 2), coefficients up to zeros at the end -/
def SameRow (r r' : Row K σ) : Prop :=
  r'.z = r.z ∧ r'.zerr = r.zerr ∧ r'.chi2 = r.chi2 ∧ r'.npixels = r.npixels ∧ r'.spectype = r.spectype ∧ r'.subtype = r.subtype ∧ r'.ncoeff = r.ncoeff ∧ r'.maxVelo = r.maxVelo ∧
  (∀ b, b ≠ 2 → (bitSet r'.zwarn b ↔ bitSet r.zwarn b)) ∧ SameCoeff r.coeff r'.coeff

theorem finishRows_forall₂ (rows : List (Row K σ)) : List.Forall₂ (fun r r' : Row K σ => ∃ i d w, r' = { r with znum := i, deltachi2 := d, zwarn := w } ∧ (w = r.zwarn ∨ w = r.zwarn ||| ZW.SMALL_DELTA_CHI2)) rows (finishRows rows) := by
  rw [List.forall₂_iff_get]
  refine ⟨(finishRows_length rows).symm, ?_⟩
  intro i h1 h2
  obtain ⟨d, f, _, _, h⟩ := finishRows_spec rows i rows[i] (List.getElem?_eq_getElem h1)
  have := List.getElem_eq_iff h2 |>.2 h
  refine ⟨i, d, _, this, ?_⟩
  cases f
  · exact Or.inl rfl
  · exact Or.inr rfl

theorem forall₂_filterBoth {α β : Type} {R : α → β → Prop} (p : α → Bool) (q : β → Bool) (hpq : ∀ a b, R a b → p a = q b) {l : List α} {r : List β} (h : List.Forall₂ R l r) : List.Forall₂ R (l.filter p) (r.filter q) := by
  induction h with
  | nil => exact .nil
  | cons hab _ ih =>
    rw [List.filter_cons, List.filter_cons, hpq _ _ hab]
    split
    · exact .cons hab ih
    · exact ih

theorem forall₂_compose {α β γ : Type} {R : α → β → Prop} {S : β → γ → Prop} {T : α → γ → Prop} (hT : ∀ a b c, R a b → S b c → T a c) {l : List α} {m : List β} {n : List γ} (h1 : List.Forall₂ R l m) (h2 : List.Forall₂ S m n) :
    List.Forall₂ T l n := by
  induction h1 generalizing n with
  | nil => cases h2; exact .nil
  | cons hab _ ih =>
    cases h2 with
    | cons h3 h4 => exact .cons (hT _ _ _ hab h3) (ih h4)

theorem forall₂_converse {α β : Type} {R : α → β → Prop} {l : List α} {m : List β} (h : List.Forall₂ R l m) : List.Forall₂ (fun b a => R a b) m l := by
  induction h with
  | nil => exact .nil
  | cons hab _ ih => exact .cons hab ih

theorem targetTable_spectype [LinearOrder σ] (nminima : Nat) {fits fits' : List (TemplateFit K σ)} (s : σ) (h : fits.filter (fun t => decide (t.spectype = s)) = fits'.filter (fun t => decide (t.spectype = s)))
    (T T' : List (Row K σ)) (hT : targetTable nminima (fun _ => false) fits = .ok T) (hT' : targetTable nminima (fun _ => false) fits' = .ok T') :
    List.Forall₂ SameRow (T.filter (fun r => decide (r.spectype = s))) (T'.filter (fun r => decide (r.spectype = s))) := by
  unfold targetTable targetRows at hT hT'
  have hf : (fits.filter (fun t => decide (t.cands ≠ []))).filter (fun t => decide (t.spectype = s)) = (fits'.filter (fun t => decide (t.cands ≠ []))).filter (fun t => decide (t.spectype = s)) := by
    rw [List.filter_comm, h, List.filter_comm]
  generalize fits.filter (fun t => decide (t.cands ≠ [])) = A at hf hT
  generalize fits'.filter (fun t => decide (t.cands ≠ [])) = B at hf hT'
  cases hm : pyMaxNat (A.map (·.ncoeff)) with
  | error e => simp only [hm] at hT; cases hT
  | ok m =>
  cases hm' : pyMaxNat (B.map (·.ncoeff)) with
  | error e => simp only [hm'] at hT'; cases hT'
  | ok m' =>
  simp only [hm] at hT
  simp only [hm'] at hT'
  replace hT := Except.ok.inj hT
  replace hT' := Except.ok.inj hT'
  subst hT hT'
  generalize hrows : (A.flatMap (fun t => t.cands.map (fun c =>
    { z := c.z, zerr := c.zerr, zwarn := c.zwarn, chi2 := c.chi2, npixels := t.npixels, spectype := t.spectype, subtype := t.subtype,
      ncoeff := t.ncoeff, coeff := c.coeff ++ List.replicate (m - c.coeff.length) 0,
      maxVelo := maxVeloDiff t.isStar, znum := 0, deltachi2 := 0 : Row K σ }))).map (flagRow (fun _ => false)) = rows
  generalize hrows' : (B.flatMap (fun t => t.cands.map (fun c =>
    { z := c.z, zerr := c.zerr, zwarn := c.zwarn, chi2 := c.chi2, npixels := t.npixels, spectype := t.spectype, subtype := t.subtype,
      ncoeff := t.ncoeff, coeff := c.coeff ++ List.replicate (m' - c.coeff.length) 0,
      maxVelo := maxVeloDiff t.isStar, znum := 0, deltachi2 := 0 : Row K σ }))).map (flagRow (fun _ => false)) = rows'
  have hin : List.Forall₂ (RowRel SameCoeff) (rows.filter (fun r => decide (r.spectype = s))) (rows'.filter (fun r => decide (r.spectype = s))) := by
    rw [← hrows, ← hrows', List.map_flatMap, List.map_flatMap]
    rw [flatMap_filter_key _ _ (fun t => decide (t.spectype = s)), flatMap_filter_key _ _ (fun t => decide (t.spectype = s)), hf]
    · generalize B.filter (fun t => decide (t.spectype = s)) = L
      induction L with
      | nil => exact .nil
      | cons t L ih =>
        rw [List.flatMap_cons, List.flatMap_cons]
        refine List.rel_append ?_ ih
        rw [List.map_map, List.map_map, List.forall₂_map_left_iff, List.forall₂_map_right_iff, List.forall₂_same]
        intro c _
        exact ⟨rfl, c.coeff, _, _, rfl, rfl⟩
    · intro t y hy
      obtain ⟨q, hq, rfl⟩ := List.mem_map.1 hy
      obtain ⟨c, _, rfl⟩ := List.mem_map.1 hq
      rfl
    · intro t y hy
      obtain ⟨q, hq, rfl⟩ := List.mem_map.1 hy
      obtain ⟨c, _, rfl⟩ := List.mem_map.1 hq
      rfl
  have htrim : List.Forall₂ (RowRel SameCoeff) ((trimRows nminima (sortZfit rows)).filter (fun r => decide (r.spectype = s))) ((trimRows nminima (sortZfit rows')).filter (fun r => decide (r.spectype = s))) := by
    rw [(C20_trim_per_spectype nminima rows).1 s, (C20_trim_per_spectype nminima rows').1 s, sortZfit_filter, sortZfit_filter]
    exact List.forall₂_take _ (sortZfit_rel _ hin)
  have hsp : ∀ a b : Row K σ, (∃ i d w, b = { a with znum := i, deltachi2 := d, zwarn := w } ∧ (w = a.zwarn ∨ w = a.zwarn ||| ZW.SMALL_DELTA_CHI2)) → decide (a.spectype = s) = decide (b.spectype = s) := by
    rintro a b ⟨i, d, w, rfl, _⟩; rfl
  have h1 := forall₂_filterBoth (fun r : Row K σ => decide (r.spectype = s)) (fun r : Row K σ => decide (r.spectype = s)) hsp (finishRows_forall₂ (trimRows nminima (sortZfit rows)))
  have h2 := forall₂_filterBoth (fun r : Row K σ => decide (r.spectype = s)) (fun r : Row K σ => decide (r.spectype = s)) hsp (finishRows_forall₂ (trimRows nminima (sortZfit rows')))
  have h3 := forall₂_compose (T := fun (a c : Row K σ) => ∃ b, RowRel SameCoeff a b ∧ ∃ i d w, c = { b with znum := i, deltachi2 := d, zwarn := w } ∧ (w = b.zwarn ∨ w = b.zwarn ||| ZW.SMALL_DELTA_CHI2))
    (fun a b c hab hbc => ⟨b, hab, hbc⟩) htrim h2
  refine forall₂_compose ?_ (forall₂_converse h1) h3
  rintro r a r' ⟨i, d, w, rfl, hw⟩ ⟨b, ⟨hb, hc⟩, i', d', w', rfl, hw'⟩
  have hbit : ∀ (u v : Nat), (u = v ∨ u = v ||| ZW.SMALL_DELTA_CHI2) → ∀ k, k ≠ 2 → (bitSet u k ↔ bitSet v k) := by
    rintro u v (rfl | rfl) k hk
    · rfl
    · unfold bitSet ZW.SMALL_DELTA_CHI2
      rw [Nat.testBit_or]
      have : Nat.testBit (2 ^ 2) k = false := by
        rw [Nat.testBit_two_pow]; simpa using fun h => hk h.symm
      have h4 : Nat.testBit 4 k = false := this
      simp [h4]
  rw [hb]
  refine ⟨rfl, rfl, rfl, rfl, rfl, rfl, rfl, rfl, ?_, hc⟩
  intro k hk
  have hz : b.zwarn = a.zwarn := by rw [hb]
  rw [hz] at hw'
  exact (hbit w' a.zwarn hw' k hk).trans (hbit w a.zwarn hw k hk).symm

/-- **C115** Two runs on the same target whose template sets have the same templates of the spectral type `s` (in the same order) give the target the same rows of that type in the same order — redshift, error, chi2,
subtype, pixel count, coefficients up to zeros at the end, all warning bits but `SMALL_DELTA_CHI2` — whatever the templates of other types. -/
theorem C115_other_types [LinearOrder σ] (c : MeasureCfg K) (templates templates' : List (Tmpl ω K σ)) (spectra : List (FitSpectrum ω K)) (s : σ)
    (h : templates.filter (fun t => decide (t.spectype = s)) = templates'.filter (fun t => decide (t.spectype = s))) (T T' : List (Row K σ))
    (hT : measureTarget c templates spectra = .ok T) (hT' : measureTarget c templates' spectra = .ok T') :
    List.Forall₂ SameRow (T.filter (fun r => decide (r.spectype = s))) (T'.filter (fun r => decide (r.spectype = s))) := by
  have hst : ∀ (tm : Tmpl ω K σ) (f : TemplateFit K σ), fitTarget c spectra tm = .ok f → f.spectype = tm.spectype := by
    intro tm f hf
    unfold fitTarget at hf
    cases h1 : scanTarget c.S tm spectra with
    | error e => rw [h1] at hf; cases hf
    | ok x =>
      rw [h1] at hf
      simp only [bind, Except.bind] at hf
      split at hf
      · cases hf
      · rw [← Except.ok.inj hf]
  unfold measureTarget at hT hT'
  cases hm : templates.mapM (fitTarget c spectra) with
  | error e => rw [hm] at hT; cases hT
  | ok fits =>
  cases hm' : templates'.mapM (fitTarget c spectra) with
  | error e => rw [hm'] at hT'; cases hT'
  | ok fits' =>
  rw [hm] at hT
  rw [hm'] at hT'
  refine targetTable_spectype c.nminima s ?_ T T' hT hT'
  have e1 := mapM_filter _ (fun t : Tmpl ω K σ => decide (t.spectype = s)) (fun t : TemplateFit K σ => decide (t.spectype = s)) _ _ hm (fun a _ b hb => by rw [hst a b hb])
  have e2 := mapM_filter _ (fun t : Tmpl ω K σ => decide (t.spectype = s)) (fun t : TemplateFit K σ => decide (t.spectype = s)) _ _ hm' (fun a _ b hb => by rw [hst a b hb])
  rw [h, e2] at e1
  exact (Except.ok.inj e1).symm

/-! ### more templates -/

/-- the candidates of the fits, as rows of the table before sorting -/
theorem targetTable_head [LinearOrder σ] (nminima : Nat) (hn : 1 ≤ nminima) (fits : List (TemplateFit K σ)) (T : List (Row K σ)) (hT : targetTable nminima (fun _ => false) fits = .ok T) :
    ∃ best, T.head? = some best ∧ (∃ t ∈ fits, ∃ q ∈ t.cands, best.chi2 = q.chi2 ∧ best.bad = decide (q.zwarn &&& ZW.badfit ≠ 0)) ∧
      ∀ t ∈ fits, ∀ q ∈ t.cands, (best.bad = true → q.zwarn &&& ZW.badfit ≠ 0) ∧ (best.bad = decide (q.zwarn &&& ZW.badfit ≠ 0) → best.chi2 ≤ q.chi2) := by
  unfold targetTable targetRows at hT
  cases hm : pyMaxNat ((fits.filter (fun t => decide (t.cands ≠ []))).map (·.ncoeff)) with
  | error e => simp only [hm] at hT; cases hT
  | ok m =>
  simp only [hm] at hT
  replace hT := Except.ok.inj hT
  subst hT
  have hflag : ∀ r : Row K σ, (flagRow (fun _ => false) r).bad = r.bad := by
    intro r
    have hb : ∀ w, (w ||| ZW.NODATA) &&& ZW.badfit = w &&& ZW.badfit := by
      intro w
      rw [Nat.and_or_distrib_right]
      have : ZW.NODATA &&& ZW.badfit = 0 := by decide
      rw [this, Nat.or_zero]
    have hb2 : ∀ w, (w ||| ZW.LITTLE_COVERAGE) &&& ZW.badfit = w &&& ZW.badfit := by
      intro w
      rw [Nat.and_or_distrib_right]
      have : ZW.LITTLE_COVERAGE &&& ZW.badfit = 0 := by decide
      rw [this, Nat.or_zero]
    unfold flagRow Row.bad
    dsimp only
    simp only [Bool.false_eq_true, if_false]
    split <;> split <;> simp only [hb, hb2]
  generalize hrows : ((fits.filter (fun t => decide (t.cands ≠ []))).flatMap (fun t => t.cands.map (fun c =>
    { z := c.z, zerr := c.zerr, zwarn := c.zwarn, chi2 := c.chi2, npixels := t.npixels, spectype := t.spectype, subtype := t.subtype,
      ncoeff := t.ncoeff, coeff := c.coeff ++ List.replicate (m - c.coeff.length) 0,
      maxVelo := maxVeloDiff t.isStar, znum := 0, deltachi2 := 0 : Row K σ }))).map (flagRow (fun _ => false)) = rows
  have hfrom : ∀ r ∈ rows, ∃ t ∈ fits, ∃ q ∈ t.cands, r.chi2 = q.chi2 ∧ r.bad = decide (q.zwarn &&& ZW.badfit ≠ 0) := by
    intro r hr
    rw [← hrows] at hr
    obtain ⟨r0, h0, rfl⟩ := List.mem_map.1 hr
    obtain ⟨t, ht, h0⟩ := List.mem_flatMap.1 h0
    obtain ⟨q, hq, rfl⟩ := List.mem_map.1 h0
    exact ⟨t, (List.mem_filter.1 ht).1, q, hq, rfl, hflag _⟩
  have hto : ∀ t ∈ fits, ∀ q ∈ t.cands, ∃ r ∈ rows, r.chi2 = q.chi2 ∧ r.bad = decide (q.zwarn &&& ZW.badfit ≠ 0) := by
    intro t ht q hq
    have hmem : (flagRow (fun _ => false) ({ z := q.z, zerr := q.zerr, zwarn := q.zwarn, chi2 := q.chi2, npixels := t.npixels, spectype := t.spectype, subtype := t.subtype, ncoeff := t.ncoeff, coeff := q.coeff ++ List.replicate (m - q.coeff.length) 0, maxVelo := maxVeloDiff t.isStar, znum := 0, deltachi2 := 0 } : Row K σ)) ∈ rows := by
      rw [← hrows]
      refine List.mem_map.2 ⟨_, List.mem_flatMap.2 ⟨t, List.mem_filter.2 ⟨ht, ?_⟩, List.mem_map.2 ⟨q, hq, rfl⟩⟩, rfl⟩
      simpa using List.ne_nil_of_mem hq
    exact ⟨_, hmem, rfl, hflag _⟩
  have hne : rows ≠ [] := by
    rw [pyMaxNat_iff] at hm
    obtain ⟨t, ht, _⟩ := List.mem_map.1 hm.1
    have := (List.mem_filter.1 ht).2
    simp only [ne_eq, decide_not, Bool.not_eq_eq_eq_not, Bool.not_true, decide_eq_false_iff_not] at this
    obtain ⟨q, hq⟩ := List.exists_mem_of_ne_nil _ this
    obtain ⟨r, hr, _⟩ := hto t (List.mem_filter.1 ht).1 q hq
    exact List.ne_nil_of_mem hr
  obtain ⟨best, h1, h2, h3⟩ := C20_best_first nminima hn rows hne
  cases hF : trimRows nminima (sortZfit rows) with
  | nil => rw [hF] at h1; cases h1
  | cons b rest =>
  rw [hF] at h1
  have hbb : b = best := Option.some.inj h1
  have hfin := finishRows_forall₂ (b :: rest)
  cases hG : finishRows (b :: rest) with
  | nil => rw [hG] at hfin; cases hfin
  | cons x xs =>
  rw [hG] at hfin
  cases hfin with
  | cons hx _ =>
  obtain ⟨i, d, w, rfl, hw⟩ := hx
  have hbad : ({ b with znum := i, deltachi2 := d, zwarn := w } : Row K σ).bad = b.bad := by
    unfold Row.bad
    rcases hw with rfl | rfl
    · rfl
    · have : ZW.SMALL_DELTA_CHI2 &&& ZW.badfit = 0 := by decide
      dsimp only
      rw [Nat.and_or_distrib_right, this, Nat.or_zero]
  refine ⟨_, rfl, ?_, ?_⟩
  · obtain ⟨t, ht, q, hq, h4, h5⟩ := hfrom b (hbb ▸ h2)
    exact ⟨t, ht, q, hq, h4, by rw [hbad, h5]⟩
  · intro t ht q hq
    obtain ⟨r, hr, h4, h5⟩ := hto t ht q hq
    have := h3 r hr
    rw [← hbb] at this
    rw [hbad]
    refine ⟨?_, ?_⟩
    · intro h
      have := this.1 h
      rw [h5] at this
      simpa using this
    · intro h
      rw [← h4]
      exact this.2 (by rw [h, h5])

/-- **C116** With more templates the best fit of a target never gets worse: its first row is good if it was, and if it is flagged bad like the old one or good like the old one, its chi2 is not larger. -/
theorem C116_more_templates [LinearOrder σ] (c : MeasureCfg K) (hn : 1 ≤ c.nminima) (templates templates' : List (Tmpl ω K σ)) (spectra : List (FitSpectrum ω K)) (h : ∀ tm ∈ templates, tm ∈ templates')
    (T T' : List (Row K σ)) (hT : measureTarget c templates spectra = .ok T) (hT' : measureTarget c templates' spectra = .ok T') :
    ∃ best best', T.head? = some best ∧ T'.head? = some best' ∧ best'.notWorse best := by
  unfold measureTarget at hT hT'
  cases hm : templates.mapM (fitTarget c spectra) with
  | error e => rw [hm] at hT; cases hT
  | ok fits =>
  cases hm' : templates'.mapM (fitTarget c spectra) with
  | error e => rw [hm'] at hT'; cases hT'
  | ok fits' =>
  rw [hm] at hT
  rw [hm'] at hT'
  obtain ⟨b, h1, ⟨t, ht, q, hq, hq1, hq2⟩, _⟩ := targetTable_head c.nminima hn fits T hT
  obtain ⟨b', h1', _, h3'⟩ := targetTable_head c.nminima hn fits' T' hT'
  refine ⟨b, b', h1, h1', ?_⟩
  have ht' : t ∈ fits' := by
    obtain ⟨tm, htm, he⟩ := mapM_ok_mem _ _ _ hm t ht
    have hF := mapM_inv _ _ _ hm'
    obtain ⟨i, hi, rfl⟩ := List.mem_iff_getElem.1 (h tm htm)
    have hlen := hF.length_eq
    have := (List.forall₂_iff_get.1 hF).2 i hi (by omega)
    have e : fits'[i]'(by omega) = t := Except.ok.inj (this.symm.trans he)
    rw [← e]; exact List.getElem_mem _
  obtain ⟨h4, h5⟩ := h3' t ht' q hq
  unfold Row.notWorse
  rw [hq1, hq2]
  exact ⟨fun hh => by simpa using h4 hh, h5⟩

end

/-! ### examples -/
namespace TemplateSet
open Units

/-- the template of `Units` under another type, with two lines at redshift 2 -/
def tmplB (sp : Nat) : Tmpl Unit ℚ Nat where
  spectype := sp
  subtype := 0
  isStar := true
  redshifts := [0, 1, 2, 3, 4]
  nbasis := 1
  algorithm := .pca
  oii := none
  bin := fun _ zs => .ok (zs.map (fun z => if z = 2 then [[3], [1]] else [[0], [0]]))

def noData : List (FitSpectrum Unit ℚ) := [⟨(), [-1, 1 / 2], [0, 0], [[1, 0], [0, 1]]⟩]

/-- what a user reads off a table -/
def brief (x : Py (List (Row ℚ Nat))) : Py (List (ℚ × ℚ × Nat × Nat × ℚ)) := x.map (List.map (fun r => (r.z, r.chi2, r.spectype, r.zwarn, r.deltachi2)))

/-- **C114** as stated is false: if fits of different templates tie — as they all do for a target without data, where every chi2 is 9999999 — the reported type is that of the template that was loaded first. -/
theorem C114_ties_refuted : brief (measureTarget cfg [tmpl false, tmplB 1] noData) = .ok [(1, 9999999, 0, 514, 0), (1, 9999999, 1, 514, 0), (1 / 2, 9999999, 0, 550, 0), (1 / 2, 9999999, 1, 550, 0)] ∧
    brief (measureTarget cfg [tmplB 1, tmpl false] noData) = .ok [(1, 9999999, 1, 514, 0), (1, 9999999, 0, 514, 0), (1 / 2, 9999999, 1, 550, 0), (1 / 2, 9999999, 0, 550, 0)] := by constructor <;> decide +kernel

/-- no ties: the two templates in either order give the same four rows -/
example : brief (measureTarget cfg [tmpl false, tmplB 1] data) = .ok [(1, 1 / 4, 0, 6, 3 / 8), (2, 5 / 8, 1, 6, 3 / 8), (3, 1, 0, 6, 0), (1 / 2, 9999999, 1, 34, 0)] := by decide +kernel

theorem fitA : (fitTarget cfg data (tmpl false)).map (fun f => f.cands.map (·.chi2)) = .ok [1 / 4, 1] := by decide +kernel
theorem fitB : (fitTarget cfg data (tmplB 1)).map (fun f => f.cands.map (·.chi2)) = .ok [5 / 8, 9999999] := by decide +kernel

/-- the hypotheses of `C114_template_order_partial` hold here -/
example : ∀ rows, measureTarget cfg [tmpl false, tmplB 1] data = .ok rows ↔ measureTarget cfg [tmplB 1, tmpl false] data = .ok rows := by
  refine C114_template_order_partial cfg _ _ data (List.Perm.swap _ _ _) ?_
  refine .cons ?_ (.cons (by simp) .nil)
  intro tm htm f f' hf hf' a ha b hb
  rw [List.mem_singleton] at htm
  subst htm
  have h1 := fitA
  have h2 := fitB
  rw [hf] at h1
  rw [hf'] at h2
  have e1 : f.cands.map (·.chi2) = [1 / 4, 1] := Except.ok.inj h1
  have e2 : f'.cands.map (·.chi2) = [5 / 8, 9999999] := Except.ok.inj h2
  have m1 : a.chi2 ∈ ([1 / 4, 1] : List ℚ) := by rw [← e1]; exact List.mem_map_of_mem ha
  have m2 : b.chi2 ∈ ([5 / 8, 9999999] : List ℚ) := by rw [← e2]; exact List.mem_map_of_mem hb
  simp only [List.mem_cons, List.not_mem_nil, or_false] at m1 m2
  rcases m1 with e | e <;> rcases m2 with e' | e' <;> rw [e, e'] <;> norm_num

/-- C115, C116: type 0 keeps its rows when the templates of type 1 are replaced or left out (only `deltachi2` and `SMALL_DELTA_CHI2` of the first row differ), and the best chi2 is smallest with all templates -/
example : brief (measureTarget cfg [tmpl false] data) = .ok [(1, 1 / 4, 0, 6, 3 / 4), (3, 1, 0, 6, 0)] ∧ brief (measureTarget cfg [tmplB 1] data) = .ok [(2, 5 / 8, 1, 2, 0), (1 / 2, 9999999, 1, 34, 0)] := by constructor <;> decide +kernel

example : [tmpl false, tmplB 1].filter (fun t => decide (t.spectype = 0)) = [tmpl false].filter (fun t => decide (t.spectype = 0)) := rfl

example : ∃ T T', measureTarget cfg [tmplB 1] data = .ok T ∧ measureTarget cfg [tmpl false, tmplB 1] data = .ok T' ∧ ∃ best best', T.head? = some best ∧ T'.head? = some best' ∧ best'.notWorse best ∧ best'.chi2 < best.chi2 := by
  have ok : ∀ x : Py (List (Row ℚ Nat)), ∀ b, brief x = .ok b → ∃ T, x = .ok T ∧ T.map (fun r => (r.z, r.chi2, r.spectype, r.zwarn, r.deltachi2)) = b := by
    intro x b h
    cases x with
    | error e => cases h
    | ok T => exact ⟨T, rfl, Except.ok.inj h⟩
  obtain ⟨T, hT, h1⟩ := ok (measureTarget cfg [tmplB 1] data) [(2, 5 / 8, 1, 2, 0), (1 / 2, 9999999, 1, 34, 0)] (by decide +kernel)
  obtain ⟨T', hT', h1'⟩ := ok (measureTarget cfg [tmpl false, tmplB 1] data) [(1, 1 / 4, 0, 6, 3 / 8), (2, 5 / 8, 1, 6, 3 / 8), (3, 1, 0, 6, 0), (1 / 2, 9999999, 1, 34, 0)] (by decide +kernel)
  obtain ⟨b, b', h2, h3, h4⟩ := C116_more_templates cfg (by decide) [tmplB 1] [tmpl false, tmplB 1] data (by simp) T T' hT hT'
  refine ⟨T, T', hT, hT', b, b', h2, h3, h4, ?_⟩
  cases T with
  | nil => cases h2
  | cons x xs =>
  cases T' with
  | nil => cases h3
  | cons y ys =>
  obtain rfl := Option.some.inj h2
  obtain rfl := Option.some.inj h3
  have e1 := (List.cons.inj h1).1
  have e2 := (List.cons.inj h1').1
  simp only [Prod.mk.injEq] at e1 e2
  rw [e1.2.1, e2.2.1]
  norm_num

end TemplateSet
end Redrock
