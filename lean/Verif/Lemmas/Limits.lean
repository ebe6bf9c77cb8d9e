import Verif.Lemmas.Poisson
import Verif.Lemmas.Particle

/-!
# Helper lemmas: setting mass and interaction parameter repeatedly
-/

namespace Obscura

open Spec DMParticle

variable {U : Units}

/-- What the limit and scan functions need of a particle. -/
structure Good (p : DMParticle) : Prop where
  base : BaseInv p
  rel : p.fixedRelation = true → p.fp * p.fnRel = p.fn * p.fpRel
  sign : p.fixedRelation = false → 0 ≤ p.fp ∧ 0 ≤ p.fn

theorem Spec.Regular.good {p : DMParticle} (h : Regular U p) : Good p := by
  rcases h with ⟨⟨r, h⟩, hf⟩ | ⟨h, hf, h1, h2⟩
  · have hc := cleanReachable_inv h
    exact ⟨hc.base, hc.rel, fun hf' => absurd hf' (by rw [hf]; decide)⟩
  · exact ⟨reachable_inv h, fun hf' => absurd hf' (by rw [hf]; decide), fun _ => ⟨h1, h2⟩⟩

theorem Spec.Regular.reachable {p : DMParticle} (h : Regular U p) : Reachable U p := by
  rcases h with ⟨⟨r, h⟩, _⟩ | ⟨h, _⟩
  · exact cleanReachable_reachable h
  · exact h

/-- The particle after `Set_Interaction_Parameter(c, t)`. -/
noncomputable def withParam (U : Units) (p : DMParticle) (t : String) (c : ℝ) : DMParticle :=
  if t = "Nuclei" then
    if 0 < p.fpRel then
      { p with fp := cpl U p c, fn := if p.fixedRelation then p.fnRel / p.fpRel * cpl U p c else p.fn }
    else
      { p with fn := cpl U p c, fp := if p.fixedRelation then p.fpRel / p.fnRel * cpl U p c else p.fp }
  else { p with sigmaElectronRef := c }

/-- The particle after `Set_Mass(m)`. -/
noncomputable def withMass (U : Units) (p : DMParticle) (m : ℝ) : DMParticle :=
  if p.fixedRelation then
    if p.fpRel ≠ 0 then
      { p with mass := m, fp := cpl U { p with mass := m } (p.sigmaProton U),
               fn := p.fnRel / p.fpRel * cpl U { p with mass := m } (p.sigmaProton U) }
    else
      { p with mass := m, fn := cpl U { p with mass := m } (p.sigmaNeutron U),
               fp := p.fpRel / p.fnRel * cpl U { p with mass := m } (p.sigmaNeutron U) }
  else
    { p with mass := m, fp := cpl U { p with mass := m } (p.sigmaProton U),
             fn := cpl U { p with mass := m } (p.sigmaNeutron U) }

theorem setParam_ok {p : DMParticle} (hb : BaseInv p) {t : String} (ht : t = "Nuclei" ∨ t = "Electrons") {c : ℝ}
    (hc' : t = "Nuclei" → 0 ≤ c) :
    p.setInteractionParameter U c t = .ok (withParam U p t c) := by
  unfold setInteractionParameter withParam
  by_cases h1 : t = "Nuclei"
  · have hc := hc' h1
    rw [if_pos h1, if_pos h1]
    by_cases h2 : 0 < p.fpRel
    · rw [if_pos h2, if_pos h2]
      cases hf : p.fixedRelation
      · rw [setSigmaProton_unfixed hb.pre hb.mass hc hf]; simp [hf]
      · rw [setSigmaProton_fixed hb.pre hb.mass hc hf h2.ne']; simp [hf]
    · rw [if_neg h2, if_neg h2]
      cases hf : p.fixedRelation
      · rw [setSigmaNeutron_unfixed hb.pre hb.mass hc hf]; simp [hf]
      · rw [setSigmaNeutron_fixed hb.pre hb.mass hc hf (hb.fn_ne h2)]; simp [hf]
  · rw [if_neg h1, if_neg h1, if_pos (ht.resolve_left h1)]; rfl

theorem setMass_ok {p : DMParticle} (hb : BaseInv p) {m : ℝ} (hm : 0 < m) :
    p.setMass U m = .ok (withMass U p m) := by
  unfold withMass
  cases hf : p.fixedRelation
  · rw [setMass_unfixed hb.pre hm hf]; simp [hf]
  · by_cases h : p.fpRel ≠ 0
    · rw [setMass_fixed_p hb.pre hm hf h, if_pos rfl, if_pos h, hf]
    · rw [setMass_fixed_n hb.pre hm hf (not_not.1 h) (hb.fn_ne (by rw [not_not.1 h]; exact lt_irrefl 0)), if_pos rfl, if_neg h, hf]

theorem target_of_get {p : DMParticle} {t : String} {c : ℝ} (h : p.getInteractionParameter U t = .ok c) :
    t = "Nuclei" ∨ t = "Electrons" := by
  unfold getInteractionParameter at h
  split_ifs at h with h1 h2 h3
  · exact .inl h1
  · exact .inl h1
  · exact .inr h3

theorem withParam_withParam (p : DMParticle) (t : String) (c c' : ℝ) :
    withParam U (withParam U p t c) t c' = withParam U p t c' := by
  by_cases h1 : t = "Nuclei"
  · by_cases h2 : 0 < p.fpRel
    · cases hf : p.fixedRelation <;> simp [withParam, h1, h2, hf, cpl]
    · cases hf : p.fixedRelation <;> simp [withParam, h1, h2, hf, cpl]
  · simp [withParam, h1]

theorem withParam_base {p : DMParticle} (hb : BaseInv p) (t : String) (c : ℝ) : BaseInv (withParam U p t c) := by
  unfold withParam
  split_ifs <;> exact ⟨hb.pre, hb.mass, hb.norm, hb.xs, hb.eta⟩

theorem withMass_base {p : DMParticle} (hb : BaseInv p) {m : ℝ} (hm : 0 < m) : BaseInv (withMass U p m) := by
  unfold withMass
  split_ifs <;> exact ⟨hb.pre, hm, hb.norm, hb.xs, hb.eta⟩

theorem withParam_get {p : DMParticle} (hb : BaseInv p) {t : String} (ht : t = "Nuclei" ∨ t = "Electrons") {c : ℝ}
    (hc' : t = "Nuclei" → 0 ≤ c) :
    (withParam U p t c).getInteractionParameter U t = .ok c := by
  by_cases h1 : t = "Nuclei"
  · have hsq := cpl_sq (U := U) hb.pre hb.mass (hc' h1)
    by_cases h2 : 0 < p.fpRel
    · cases hf : p.fixedRelation <;>
        simp [withParam, h1, h2, getInteractionParameter, sigmaProton, hsq]
    · cases hf : p.fixedRelation <;>
        simp [withParam, h1, h2, getInteractionParameter, sigmaNeutron, hsq]
  · have h3 := ht.resolve_left h1
    subst h3
    simp [withParam, getInteractionParameter, sigmaElectron]

theorem get_nonneg {p : DMParticle} (hb : BaseInv p) {t : String} {c : ℝ} (h : p.getInteractionParameter U t = .ok c)
    : t = "Nuclei" → 0 ≤ c := by
  unfold getInteractionParameter at h
  split_ifs at h with h1 h2 h3
  · cases h; exact fun _ => sigmaProton_nonneg hb.pre
  · cases h; exact fun _ => sigmaNeutron_nonneg hb.pre
  · exact fun h => absurd h h1

theorem sign_exists (x : ℝ) : ∃ e : ℝ, e * e = 1 ∧ |x| = e * x := by
  rcases le_total 0 x with h | h
  · exact ⟨1, by norm_num, by rw [abs_of_nonneg h, one_mul]⟩
  · exact ⟨-1, by norm_num, by rw [abs_of_nonpos h]; ring⟩

/-- Writing back the interaction parameter changes at most the common sign of the couplings. -/
theorem withParam_self {p : DMParticle} (hg : Good p) {t : String} {c : ℝ} (h : p.getInteractionParameter U t = .ok c) :
    ∃ e : ℝ, e * e = 1 ∧ (p.fixedRelation = false → e = 1) ∧
      withParam U p t c = { p with fp := e * p.fp, fn := e * p.fn } := by
  have hb := hg.base
  unfold getInteractionParameter at h
  split_ifs at h with h1 h2 h3
  · cases h
    have hc := cpl_sigmaProton (U := U) hb.pre hb.mass
    cases hf : p.fixedRelation
    · obtain ⟨h4, h5⟩ := hg.sign hf
      refine ⟨1, by norm_num, fun _ => rfl, ?_⟩
      simp [withParam, h1, h2, hf, hc, abs_of_nonneg h4]
    · obtain ⟨e, he, hab⟩ := sign_exists p.fp
      refine ⟨e, he, (by simp), ?_⟩
      have hrel := hg.rel hf
      have hfn : p.fn = p.fnRel / p.fpRel * p.fp := by field_simp; linarith
      have : p.fnRel / p.fpRel * (e * p.fp) = e * p.fn := by rw [hfn]; ring
      simp [withParam, h1, h2, hf, hc, hab, this]
  · cases h
    have hc := cpl_sigmaNeutron (U := U) hb.pre hb.mass
    have hn := hb.fn_ne h2
    cases hf : p.fixedRelation
    · obtain ⟨h4, h5⟩ := hg.sign hf
      refine ⟨1, by norm_num, fun _ => rfl, ?_⟩
      simp [withParam, h1, h2, hf, hc, abs_of_nonneg h5]
    · obtain ⟨e, he, hab⟩ := sign_exists p.fn
      refine ⟨e, he, (by simp), ?_⟩
      have hrel := hg.rel hf
      have hfn : p.fp = p.fpRel / p.fnRel * p.fn := by field_simp; linarith
      have : p.fpRel / p.fnRel * (e * p.fn) = e * p.fp := by rw [hfn]; ring
      simp [withParam, h1, h2, hf, hc, hab, this]
  · cases h
    refine ⟨1, by norm_num, fun _ => rfl, ?_⟩
    have h1' : ¬ t = "Nuclei" := h1
    simp [withParam, h1', sigmaElectron]

/-- Writing back the mass changes at most the common sign of the couplings. -/
theorem withMass_self {p : DMParticle} (hg : Good p) :
    ∃ e : ℝ, e * e = 1 ∧ (p.fixedRelation = false → e = 1) ∧
      withMass U p p.mass = { p with fp := e * p.fp, fn := e * p.fn } := by
  have hb := hg.base
  have hcp : ∀ b, cpl U { p with mass := p.mass, fixedRelation := b } (p.sigmaProton U) = |p.fp| :=
    fun _ => cpl_sigmaProton (U := U) hb.pre hb.mass
  have hcn : ∀ b r, cpl U { p with mass := p.mass, fixedRelation := b, fpRel := r } (p.sigmaNeutron U) = |p.fn| :=
    fun _ _ => cpl_sigmaNeutron (U := U) hb.pre hb.mass
  cases hf : p.fixedRelation
  · obtain ⟨h4, h5⟩ := hg.sign hf
    refine ⟨1, by norm_num, fun _ => rfl, ?_⟩
    simp [withMass, hf, hcp, hcn, abs_of_nonneg h4, abs_of_nonneg h5]
  · have hrel := hg.rel hf
    by_cases h : p.fpRel ≠ 0
    · obtain ⟨e, he, hab⟩ := sign_exists p.fp
      refine ⟨e, he, (by simp), ?_⟩
      have hfn : p.fn = p.fnRel / p.fpRel * p.fp := by field_simp; linarith
      have : p.fnRel / p.fpRel * (e * p.fp) = e * p.fn := by rw [hfn]; ring
      simp [withMass, hf, h, hcp, hab, this]
    · have h0 := not_not.1 h
      have hn := hb.fn_ne (by rw [h0]; exact lt_irrefl 0)
      obtain ⟨e, he, hab⟩ := sign_exists p.fn
      refine ⟨e, he, (by simp), ?_⟩
      have hfn : p.fp = p.fpRel / p.fnRel * p.fn := by field_simp; linarith
      have : p.fpRel / p.fnRel * (e * p.fn) = e * p.fp := by rw [hfn]; ring
      simp [withMass, hf, h0, hcn, hab]
      rw [h0] at hfn; simp at hfn; simp [hfn]

/-- `q` is `p` at another mass (and possibly another common sign): all cross sections are the same. -/
structure Twin (U : Units) (p q : DMParticle) : Prop where
  good : Good q
  shape : ∃ m x y, q = { p with mass := m, fp := x, fn := y }
  sp : q.sigmaProton U = p.sigmaProton U
  sn : q.sigmaNeutron U = p.sigmaNeutron U

theorem Twin.refl {p : DMParticle} (hg : Good p) : Twin U p p := ⟨hg, ⟨p.mass, p.fp, p.fn, rfl⟩, rfl, rfl⟩

theorem withMass_sigma {p : DMParticle} (hb : BaseInv p) (hr : RelOK p) {m : ℝ} (hm : 0 < m) :
    (withMass U p m).sigmaProton U = p.sigmaProton U ∧ (withMass U p m).sigmaNeutron U = p.sigmaNeutron U := by
  have hb' : BaseInv { p with mass := m } := hb.withMass hm
  have h1 := cpl_sq (U := U) hb'.pre hb'.mass (sigmaProton_nonneg (U := U) hb.pre)
  have h2 := cpl_sq (U := U) hb'.pre hb'.mass (sigmaNeutron_nonneg (U := U) hb.pre)
  cases hf : p.fixedRelation
  · simp only [withMass, hf, Bool.false_eq_true, if_false]
    exact ⟨h1, h2⟩
  · have hrel := hr hf
    by_cases h : p.fpRel ≠ 0
    · simp only [withMass, hf, if_true, if_pos h]
      refine ⟨h1, ?_⟩
      have hfn : p.fn = p.fnRel / p.fpRel * p.fp := by field_simp; linarith
      have e : p.sigmaNeutron U = (p.fnRel / p.fpRel) ^ 2 * p.sigmaProton U := by
        simp only [sigmaNeutron, sigmaProton]; rw [hfn]; ring
      rw [e]
      simp only [sigmaNeutron]
      simp only [hf] at h1
      linear_combination (p.fnRel / p.fpRel) ^ 2 * h1
    · have h0 := not_not.1 h
      have hn := hb.fn_ne (by rw [h0]; exact lt_irrefl 0)
      simp only [withMass, hf, if_true, if_neg h]
      refine ⟨?_, h2⟩
      have hfn : p.fp = 0 := by
        have : p.fp * p.fnRel = 0 := by rw [hrel, h0, mul_zero]
        exact (mul_eq_zero.1 this).resolve_right hn
      simp [sigmaProton, h0, hfn]

theorem withMass_good' {p : DMParticle} (hb : BaseInv p) {m : ℝ} (hm : 0 < m) : Good (withMass U p m) := by
  have hb' : BaseInv { p with mass := m } := hb.withMass hm
  refine ⟨withMass_base hb hm, fun hf => ?_, fun hf => ?_⟩
  · have hf' : p.fixedRelation = true := by
      revert hf; unfold withMass; split_ifs <;> simp_all
    by_cases h : p.fpRel ≠ 0
    · simp only [withMass, hf', if_true, if_pos h]; field_simp
    · have h0 := not_not.1 h
      have hn := hb.fn_ne (by rw [h0]; exact lt_irrefl 0)
      simp [withMass, hf', h0]
  · have hf' : p.fixedRelation = false := by
      revert hf; unfold withMass; split_ifs <;> simp_all
    simp only [withMass, hf', Bool.false_eq_true, if_false]
    exact ⟨cpl_nonneg hb'.mass, cpl_nonneg hb'.mass⟩

theorem withMass_good {p : DMParticle} (hg : Good p) {m : ℝ} (hm : 0 < m) : Good (withMass U p m) := withMass_good' hg.base hm

theorem withMass_shape (p : DMParticle) (m : ℝ) : ∃ x y, withMass U p m = { p with mass := m, fp := x, fn := y } := by
  unfold withMass; split_ifs <;> exact ⟨_, _, rfl⟩

theorem Twin.withMass {p q : DMParticle} (h : Twin U p q) {m : ℝ} (hm : 0 < m) : Twin U p (withMass U q m) := by
  obtain ⟨m', x, y, hq⟩ := h.shape
  obtain ⟨x', y', hq'⟩ := withMass_shape (U := U) q m
  obtain ⟨h1, h2⟩ := withMass_sigma (U := U) h.good.base h.good.rel hm
  exact ⟨withMass_good h.good hm, ⟨m, x', y', by rw [hq', hq]⟩, h1.trans h.sp, h2.trans h.sn⟩

/-- Changing the mass forgets where one comes from. -/
theorem Twin.withMass_eq {p q : DMParticle} (h : Twin U p q) (m : ℝ) : Obscura.withMass U q m = Obscura.withMass U p m := by
  obtain ⟨m', x, y, hq⟩ := h.shape
  have h1 := h.sp
  have h2 := h.sn
  unfold Obscura.withMass
  rw [h1, h2]
  subst hq
  rfl

theorem Good.ofSign {p : DMParticle} (hg : Good p) {e : ℝ} (he : e * e = 1)
    (hs : p.fixedRelation = false → e = 1) : Good { p with fp := e * p.fp, fn := e * p.fn } := by
  refine ⟨⟨hg.base.pre, hg.base.mass, hg.base.norm, hg.base.xs, hg.base.eta⟩, fun hf => ?_, fun hf => ?_⟩
  · have := hg.rel hf
    show e * p.fp * p.fnRel = e * p.fn * p.fpRel
    linear_combination e * this
  · obtain ⟨h1, h2⟩ := hg.sign hf
    have := hs hf
    subst this
    exact ⟨by simpa using h1, by simpa using h2⟩

theorem withParam_good {p : DMParticle} (hg : Good p) (t : String) (c : ℝ) : Good (withParam U p t c) := by
  have hb := hg.base
  refine ⟨withParam_base hb t c, fun hf => ?_, fun hf => ?_⟩
  · have hf' : p.fixedRelation = true := by
      revert hf; unfold withParam; split_ifs <;> simp_all
    by_cases h1 : t = "Nuclei"
    · by_cases h2 : 0 < p.fpRel
      · simp only [withParam, h1, if_true, h2, hf']
        have := h2.ne'
        field_simp
      · have := hb.fn_ne h2
        simp only [withParam, h1, if_true, h2, if_false, hf']
        field_simp
    · simp only [withParam, h1, if_false]; exact hg.rel hf'
  · have hf' : p.fixedRelation = false := by
      revert hf; unfold withParam; split_ifs <;> simp_all
    obtain ⟨h4, h5⟩ := hg.sign hf'
    have hc : 0 ≤ cpl U p c := cpl_nonneg hb.mass
    unfold withParam
    split_ifs <;> simp_all

theorem withParam_shape (p : DMParticle) (t : String) (c : ℝ) :
    ∃ x y z, withParam U p t c = { p with fp := x, fn := y, sigmaElectronRef := z } := by
  unfold withParam; split_ifs <;> exact ⟨_, _, _, rfl⟩

theorem withMass_withMass {p : DMParticle} (hb : BaseInv p) {m : ℝ} (hm : 0 < m) (m' : ℝ) :
    withMass U (withMass U p m) m' = withMass U p m' := by
  have hb' : BaseInv { p with mass := m } := hb.withMass hm
  have h1 := cpl_sq (U := U) hb'.pre hb'.mass (sigmaProton_nonneg (U := U) hb.pre)
  have h2 := cpl_sq (U := U) hb'.pre hb'.mass (sigmaNeutron_nonneg (U := U) hb.pre)
  have e1 : ∀ y, ({ p with mass := m, fp := cpl U { p with mass := m } (p.sigmaProton U), fn := y } : DMParticle).sigmaProton U =
      p.sigmaProton U := fun y => h1
  have e2 : ∀ x, ({ p with mass := m, fn := cpl U { p with mass := m } (p.sigmaNeutron U), fp := x } : DMParticle).sigmaNeutron U =
      p.sigmaNeutron U := fun x => h2
  by_cases hf : p.fixedRelation = true
  · by_cases h : p.fpRel ≠ 0
    · have hw : withMass U p m = { p with mass := m, fp := cpl U { p with mass := m } (p.sigmaProton U), fn := p.fnRel / p.fpRel * cpl U { p with mass := m } (p.sigmaProton U) } := by
        unfold withMass; rw [if_pos hf, if_pos h]
      rw [hw]
      unfold withMass
      rw [if_pos hf, if_pos h, if_pos hf, if_pos h, e1]
      rfl
    · have hw : withMass U p m = { p with mass := m, fn := cpl U { p with mass := m } (p.sigmaNeutron U), fp := p.fpRel / p.fnRel * cpl U { p with mass := m } (p.sigmaNeutron U) } := by
        unfold withMass; rw [if_pos hf, if_neg h]
      rw [hw]
      unfold withMass
      rw [if_pos hf, if_neg h, if_pos hf, if_neg h, e2]
      rfl
  · have hw : withMass U p m = { p with mass := m, fp := cpl U { p with mass := m } (p.sigmaProton U), fn := cpl U { p with mass := m } (p.sigmaNeutron U) } := by
      unfold withMass; rw [if_neg hf]
    rw [hw]
    unfold withMass
    rw [if_neg hf, if_neg hf, e1, e2]
    rfl

/-- `q` becomes what `p` becomes when the mass is set. -/
structure MassTwin (U : Units) (p q : DMParticle) : Prop where
  base : BaseInv q
  same : ∀ m, 0 < m → withMass U q m = withMass U p m

theorem MassTwin.refl {p : DMParticle} (hb : BaseInv p) : MassTwin U p p := ⟨hb, fun _ _ => rfl⟩

theorem withParam_withMass_withParam (p : DMParticle) (t : String) (c m c' : ℝ) :
    withParam U (withMass U (withParam U p t c) m) t c' = withParam U (withMass U p m) t c' := by
  by_cases h1 : t = "Nuclei"
  · by_cases h2 : 0 < p.fpRel
    · cases hf : p.fixedRelation
      · simp [withParam, withMass, h1, h2, hf, cpl, sigmaNeutron]
      · simp [withParam, withMass, h1, h2, h2.ne', hf, cpl]
    · cases hf : p.fixedRelation
      · simp [withParam, withMass, h1, h2, hf, cpl, sigmaProton]
      · by_cases h3 : p.fpRel = 0
        · simp [withParam, withMass, h1, hf, cpl, h3]
        · simp [withParam, withMass, h1, h2, hf, cpl, h3]
  · cases hf : p.fixedRelation
    · simp [withParam, withMass, h1, hf, cpl, sigmaProton, sigmaNeutron]
    · by_cases h3 : p.fpRel = 0
      · simp [withParam, withMass, h1, hf, cpl, h3, sigmaNeutron]
      · simp [withParam, withMass, h1, hf, cpl, h3, sigmaProton]

/-- Writing back mass and interaction parameter changes nothing observable. -/
theorem sameObservables_withParam {p : DMParticle} (hg : Good p) {t : String} {c : ℝ}
    (h : p.getInteractionParameter U t = .ok c) : SameObservables U p (withParam U p t c) := by
  obtain ⟨e, he, _, h1⟩ := withParam_self hg h
  rw [h1]; exact sameObservables_of_sign he

theorem sameObservables_withMass {p : DMParticle} (hg : Good p) : SameObservables U p (withMass U p p.mass) := by
  obtain ⟨e, he, _, h1⟩ := withMass_self (U := U) hg
  rw [h1]; exact sameObservables_of_sign he

theorem SameObservables.trans {p q r : DMParticle} (h1 : SameObservables U p q) (h2 : SameObservables U q r) :
    SameObservables U p r :=
  ⟨h2.mass.trans h1.mass, h2.spin.trans h1.spin, h2.fraction.trans h1.fraction, h2.lowMass.trans h1.lowMass,
    h2.useEta.trans h1.useEta, h2.usesXS.trans h1.usesXS, h2.sigmaP.trans h1.sigmaP, h2.sigmaN.trans h1.sigmaN,
    h2.sigmaE.trans h1.sigmaE, fun t => (h2.param t).trans (h1.param t), fun q iso v => (h2.dsN q iso v).trans (h1.dsN q iso v),
    fun q v => (h2.dsE q v).trans (h1.dsE q v), fun I iso v => (h2.totN I iso v).trans (h1.totN I iso v),
    fun v => (h2.totE v).trans (h1.totE v)⟩

theorem sameObservables_both {p : DMParticle} (hg : Good p) {t : String} {c : ℝ}
    (h : p.getInteractionParameter U t = .ok c) : SameObservables U p (withParam U (withMass U p p.mass) t c) := by
  have h1 := sameObservables_withMass (U := U) hg
  refine SameObservables.trans h1 (sameObservables_withParam (withMass_good hg hg.base.mass) ?_)
  rw [h1.param, h]

/-- After a limit at `q` the particle is still a twin. -/
theorem Twin.withParam_self {p q : DMParticle} (h : Twin U p q) {t : String} {c : ℝ}
    (hc : q.getInteractionParameter U t = .ok c) : Twin U p (withParam U q t c) := by
  obtain ⟨e, he, hs, h1⟩ := Obscura.withParam_self h.good hc
  have hg := h.good.ofSign he hs
  obtain ⟨m, x, y, hq⟩ := h.shape
  have hsame : SameObservables U q { q with fp := e * q.fp, fn := e * q.fn } := sameObservables_of_sign he
  rw [h1]
  exact ⟨hg, ⟨m, e * q.fp, e * q.fn, by rw [hq]⟩, hsame.sigmaP.trans h.sp, hsame.sigmaN.trans h.sn⟩

/-- The particle at mass `m`, with its interaction parameter written back. -/
theorem MassTwin.writeBack {p : DMParticle} (hb : BaseInv p) {m : ℝ} (hm : 0 < m) {t : String} {c : ℝ}
    (hc : (withMass U p m).getInteractionParameter U t = .ok c) : MassTwin U p (withParam U (withMass U p m) t c) := by
  have hT := (Twin.refl (U := U) (withMass_good' (U := U) hb hm)).withParam_self hc
  exact ⟨hT.good.base, fun m' _ => by rw [hT.withMass_eq, withMass_withMass hb hm]⟩

theorem cpl_scale {p : DMParticle} {c c0 : ℝ} (hp : 0 < p.prefactor) (hc : 0 ≤ c) (h0 : 0 < c0) :
    cpl U p c = Real.sqrt (c / c0) * cpl U p c0 := by
  unfold cpl
  rw [← mul_div_assoc, ← Real.sqrt_mul (by positivity)]
  congr 2
  field_simp

/-- Changing the interaction parameter multiplies the cross sections on the target, if the coupling ratio is fixed. -/
theorem scaledBy_withParam {p : DMParticle} (hg : Good p) {t : String} {c c0 : ℝ}
    (h : p.getInteractionParameter U t = .ok c0) (hf : p.fixedRelation = true ∨ t = "Electrons") (h0 : 0 < c0) (hc : 0 ≤ c) :
    ScaledBy U t (c / c0) p (withParam U p t c) := by
  have hb := hg.base
  by_cases h1 : t = "Nuclei"
  · have hf : p.fixedRelation = true := hf.resolve_right (by rw [h1]; decide)
    have ht : ¬ t = "Electrons" := by rw [h1]; decide
    obtain ⟨e, he, _, h2⟩ := withParam_self hg h
    have hs := Real.mul_self_sqrt (show 0 ≤ c / c0 by positivity)
    set s := Real.sqrt (c / c0) with hsd
    have h3 : withParam U p t c = { p with fp := s * e * p.fp, fn := s * e * p.fn } := by
      have hcs := cpl_scale (U := U) (p := p) hb.pre hc h0
      rw [← hsd] at hcs
      unfold withParam at h2 ⊢
      simp only [h1, hf, if_true] at h2 ⊢
      split_ifs at h2 ⊢ with h4
      · have e1 := congrArg DMParticle.fp h2
        have e2 := congrArg DMParticle.fn h2
        simp only at e1 e2
        rw [hcs]
        congr 1
        · rw [e1]; ring
        · rw [mul_left_comm, e2]; ring
      · have e1 := congrArg DMParticle.fp h2
        have e2 := congrArg DMParticle.fn h2
        simp only at e1 e2
        rw [hcs]
        congr 1
        · rw [mul_left_comm, e1]; ring
        · rw [e2]; ring
    rw [h3]
    have key : ∀ a b : ℝ, (s * e * p.fp * a + s * e * p.fn * b) ^ 2 = c / c0 * (p.fp * a + p.fn * b) ^ 2 := by
      intro a b
      have : (s * e * p.fp * a + s * e * p.fn * b) ^ 2 = (s * s) * (e * e) * (p.fp * a + p.fn * b) ^ 2 := by ring
      rw [this, hs, he, mul_one]
    refine ⟨rfl, rfl, rfl, rfl, rfl, rfl, fun q iso v => ?_, fun q v => ?_⟩
    · rw [if_pos h1]
      simp only [dSigmadq2Nucleus]
      split
      · rw [key]; ring
      · split_ifs
        · ring
        · rw [key]; ring
    · rw [if_neg ht, one_mul]; rfl
  · have ht := target_of_get h
    have h3 := ht.resolve_left h1
    subst h3
    have h4 : withParam U p "Electrons" c = { p with sigmaElectronRef := c } := by simp [withParam]
    have h5 : p.sigmaElectronRef = c0 := by
      simp only [getInteractionParameter, if_neg h1, if_true, sigmaElectron] at h
      cases h; rfl
    rw [h4]
    refine ⟨rfl, rfl, rfl, rfl, rfl, rfl, fun q iso v => ?_, fun q v => ?_⟩
    · rw [if_neg h1, one_mul]; rfl
    · rw [if_pos rfl]
      have h6 : c = c / c0 * p.sigmaElectronRef := by rw [h5]; field_simp
      simp only [dSigmadq2Electron]
      split
      · conv_lhs => rw [h6]
        ring
      · conv_lhs => rw [h6]
        ring

end Obscura
