import Verif.Lemmas.Rounding
import Verif.Lemmas.Detector
import Verif.Props.Astronomy
import Mathlib.Tactic.IntervalCases
import Mathlib.Analysis.SpecialFunctions.Pow.NNReal

/-!
# C88 — rounding errors of stored cross sections, day counts and mass fractions
-/

namespace Obscura

open Spec

variable {rnd : ℝ → ℝ} {U : Units} {p : DMParticle}

/-! ### Auxiliary facts -/

theorem rnd_mul_self {y : ℝ} (hr : DoubleRounding rnd) : 0 ≤ rnd y * y := by
  have h := abs_le.1 (hr.close y)
  rcases le_total 0 y with hy | hy
  · exact mul_nonneg (rnd_nonneg hr hy) hy
  · rw [abs_of_nonpos hy] at h
    have : rnd y ≤ 0 := by linarith [h.2]
    exact mul_nonneg_of_nonpos_of_nonpos this hy

theorem reducedMass_rnd_pos (hr : DoubleRounding rnd) {m : ℝ} (hm : 0 < m) : 0 < Rounded.reducedMass rnd m U.mProton := by
  have h1 := rnd_pos hr (mul_pos hm U.mProton_pos)
  have h2 := rnd_pos hr (add_pos hm U.mProton_pos)
  exact rnd_pos hr (div_pos h1 h2)

theorem sigmaOf_nonneg (hr : DoubleRounding rnd) {c m : ℝ} (hc : 0 < c) (hm : 0 < m) (f : ℝ) : 0 ≤ Rounded.sigmaOf rnd U c m f := by
  have hred := (reducedMass_rnd_pos (U := U) hr hm).le
  have h1 : 0 ≤ rnd (c * f) * f := by
    have := rnd_mul_self (y := c * f) hr
    have e : rnd (c * f) * (c * f) = c * (rnd (c * f) * f) := by ring
    rw [e] at this
    exact nonneg_of_mul_nonneg_right this hc
  have hpi := (rnd_pos hr Real.pi_pos).le
  unfold Rounded.sigmaOf
  exact rnd_nonneg hr (div_nonneg (rnd_nonneg hr (mul_nonneg (rnd_nonneg hr (mul_nonneg (rnd_nonneg hr h1) hred)) hred)) hpi)

/-- One more rounded multiplication. -/
theorem Spec.Near.step (hr : DoubleRounding rnd) {k : ℕ} {x y c : ℝ} (hx : 0 ≤ x) (hc : 0 ≤ c) (h : Near k x y) : Near (k + 1) (x * c) (rnd (y * c)) :=
  (h.mul_right hc).round hr (mul_nonneg hx hc)

/-- Reading: five roundings. -/
theorem sigmaOf_near (hr : DoubleRounding rnd) {c m f : ℝ} (hc : 0 ≤ c) (hm : 0 < m) (hf : 0 ≤ f) :
    Near 5 (c * f * f * Rounded.reducedMass rnd m U.mProton * Rounded.reducedMass rnd m U.mProton / rnd Real.pi) (Rounded.sigmaOf rnd U c m f) := by
  have hred := (reducedMass_rnd_pos (U := U) hr hm).le
  have hpi := (rnd_pos hr Real.pi_pos).le
  unfold Rounded.sigmaOf
  rw [div_eq_mul_inv, div_eq_mul_inv]
  refine Near.step hr (by positivity) (by positivity) ?_
  refine Near.step hr (by positivity) hred ?_
  refine Near.step hr (by positivity) hred ?_
  refine Near.step hr (by positivity) hf ?_
  exact (Near.refl _).round hr (by positivity)

/-- Writing: the coupling is defined, and its cross section is off by at most six roundings. -/
theorem coupling_near (hr : DoubleRounding rnd) (hm : 0 < p.mass) (hc : 0 < p.prefactor) {s : ℝ} (hs : 0 ≤ s) :
    ∃ f, Rounded.couplingOf rnd U p s = .ok f ∧ 0 ≤ f ∧
      Near 6 s (p.prefactor * f * f * Rounded.reducedMass rnd p.mass U.mProton * Rounded.reducedMass rnd p.mass U.mProton / rnd Real.pi) := by
  have hred := reducedMass_rnd_pos (U := U) hr hm
  have hpi := rnd_pos hr Real.pi_pos
  set red := Rounded.reducedMass rnd p.mass U.mProton with hredd
  set x := rnd (rnd (rnd Real.pi * s) / p.prefactor) with hx
  have hx1 : Near 2 (rnd Real.pi * s * p.prefactor⁻¹) x := by
    rw [hx, div_eq_mul_inv]
    exact Near.step hr (by positivity) (by positivity) ((Near.refl _).round hr (by positivity))
  have hx0 : 0 ≤ x := hx1.nonneg (by positivity)
  have hr1 : Near 1 (Real.sqrt x) (rnd (Real.sqrt x)) := (Near.refl _).round hr (Real.sqrt_nonneg _)
  have hr0 := hr1.nonneg (Real.sqrt_nonneg _)
  have hf1 : Near 1 (rnd (Real.sqrt x) * red⁻¹) (rnd (rnd (Real.sqrt x) / red)) := by
    rw [div_eq_mul_inv]
    exact (Near.refl _).round hr (by positivity)
  have hf0 := hf1.nonneg (by positivity)
  refine ⟨rnd (rnd (Real.sqrt x) / red), ?_, hf0, ?_⟩
  · unfold Rounded.couplingOf Rounded.div Rounded.sqrt
    rw [fdiv_ok hc.ne', Outcome.bind_ok, Outcome.bind_ok, ← hx]
    have : fsqrt x = .ok (Real.sqrt x) := by unfold fsqrt; rw [if_neg (by linarith)]
    rw [this, Outcome.bind_ok, Outcome.bind_ok, ← hredd, fdiv_ok hred.ne', Outcome.bind_ok]
  · set f := rnd (rnd (Real.sqrt x) / red)
    have h2 := hr1.sq (Real.sqrt_nonneg _)
    rw [Real.mul_self_sqrt hx0] at h2
    have h3 := hf1.sq (by positivity)
    have h4 : Near (2 + 2 * 1) (rnd Real.pi * s * p.prefactor⁻¹) (rnd (Real.sqrt x) * rnd (Real.sqrt x)) := hx1.trans h2
    have h5 := h4.mul_right (c := red⁻¹ * red⁻¹) (by positivity)
    have e : rnd (Real.sqrt x) * rnd (Real.sqrt x) * (red⁻¹ * red⁻¹) = rnd (Real.sqrt x) * red⁻¹ * (rnd (Real.sqrt x) * red⁻¹) := by ring
    rw [e] at h5
    have h6 := (h5.trans h3).mul_right (c := p.prefactor * red * red / rnd Real.pi) (by positivity)
    have e1 : rnd Real.pi * s * p.prefactor⁻¹ * (red⁻¹ * red⁻¹) * (p.prefactor * red * red / rnd Real.pi) = s := by
      field_simp
    have e2 : f * f * (p.prefactor * red * red / rnd Real.pi) = p.prefactor * f * f * red * red / rnd Real.pi := by ring
    rw [e1, e2] at h6
    exact h6

/-- The proton sector after `Set_Sigma_Proton`. -/
theorem setSigmaProton_near (hr : DoubleRounding rnd) (hm : 0 < p.mass) (hc : 0 < p.prefactor) (hrel : p.fixedRelation = true → p.fpRel ≠ 0) {s : ℝ}
    (hs : 0 ≤ s) : ∃ f g, Rounded.setSigmaProton rnd U p s = .ok { p with fp := f, fn := g } ∧ Near 11 s (Rounded.sigmaOf rnd U p.prefactor p.mass f) ∧
      (p.fixedRelation = true → 0 ≤ f ∧ g = rnd (rnd (p.fnRel / p.fpRel) * f)) ∧ (p.fixedRelation = false → g = p.fn) := by
  obtain ⟨f, h1, hf, h2⟩ := coupling_near (U := U) (p := p) hr hm hc hs
  have h3 := h2.trans (sigmaOf_near (U := U) hr hc.le hm hf)
  unfold Rounded.setSigmaProton
  by_cases hx : p.fixedRelation = true
  · refine ⟨f, _, ?_, h3, fun _ => ⟨hf, rfl⟩, fun h => by simp [hx] at h⟩
    rw [if_pos hx, if_neg (hrel hx), h1, Outcome.bind_ok, Rounded.div, fdiv_ok (hrel hx)]
    rfl
  · refine ⟨f, p.fn, ?_, h3, fun h => absurd h hx, fun _ => rfl⟩
    rw [if_neg hx, h1]
    rfl

/-- The neutron sector after `Set_Sigma_Neutron`. -/
theorem setSigmaNeutron_near (hr : DoubleRounding rnd) (hm : 0 < p.mass) (hc : 0 < p.prefactor) (hrel : p.fixedRelation = true → p.fnRel ≠ 0) {s : ℝ}
    (hs : 0 ≤ s) : ∃ f g, Rounded.setSigmaNeutron rnd U p s = .ok { p with fn := f, fp := g } ∧ Near 11 s (Rounded.sigmaOf rnd U p.prefactor p.mass f) ∧
      (p.fixedRelation = true → 0 ≤ f ∧ g = rnd (rnd (p.fpRel / p.fnRel) * f)) ∧ (p.fixedRelation = false → g = p.fp) := by
  obtain ⟨f, h1, hf, h2⟩ := coupling_near (U := U) (p := p) hr hm hc hs
  have h3 := h2.trans (sigmaOf_near (U := U) hr hc.le hm hf)
  unfold Rounded.setSigmaNeutron
  by_cases hx : p.fixedRelation = true
  · refine ⟨f, _, ?_, h3, fun _ => ⟨hf, rfl⟩, fun h => by simp [hx] at h⟩
    rw [if_pos hx, if_neg (hrel hx), h1, Outcome.bind_ok, Rounded.div, fdiv_ok (hrel hx)]
    rfl
  · refine ⟨f, p.fp, ?_, h3, fun h => absurd h hx, fun _ => rfl⟩
    rw [if_neg hx, h1]
    rfl

/-- A particle whose interaction parameter for nuclei is the proton cross section, or, with couplings only to neutrons, the neutron cross section. -/
structure Scattering (p : DMParticle) : Prop where
  mass : 0 < p.mass
  prefactor : 0 < p.prefactor
  primary : 0 < p.fpRel ∨ (p.fixedRelation = true ∧ p.fpRel = 0 ∧ p.fnRel ≠ 0)

/-- The cross section read by `Get_Interaction_Parameter("Nuclei")`. -/
noncomputable def parameter (rnd : ℝ → ℝ) (U : Units) (p : DMParticle) : ℝ :=
  Rounded.sigmaOf rnd U p.prefactor p.mass (if 0 < p.fpRel then p.fp else p.fn)

theorem get_eq : Rounded.getInteractionParameter rnd U p "Nuclei" = .ok (parameter rnd U p) := by
  unfold Rounded.getInteractionParameter parameter Rounded.sigmaProton Rounded.sigmaNeutron
  rw [if_pos rfl]
  split_ifs <;> rfl

/-- The members that neither `Set_Mass` nor the limits change. -/
structure SameRatio (p p' : DMParticle) : Prop where
  prefactor : p'.prefactor = p.prefactor
  fixedRelation : p'.fixedRelation = p.fixedRelation
  fpRel : p'.fpRel = p.fpRel
  fnRel : p'.fnRel = p.fnRel

theorem SameRatio.refl (p : DMParticle) : SameRatio p p := ⟨rfl, rfl, rfl, rfl⟩

theorem SameRatio.trans {p q r : DMParticle} (h1 : SameRatio p q) (h2 : SameRatio q r) : SameRatio p r :=
  ⟨h2.1.trans h1.1, h2.2.trans h1.2, h2.3.trans h1.3, h2.4.trans h1.4⟩

theorem Scattering.of {p p' : DMParticle} (h : Scattering p) (hs : SameRatio p p') (hm : 0 < p'.mass) : Scattering p' :=
  ⟨hm, hs.prefactor ▸ h.prefactor, by rw [hs.fpRel, hs.fixedRelation, hs.fnRel]; exact h.primary⟩

/-- The ratio of the couplings is the fixed one, up to two roundings. -/
def HasRatio (rnd : ℝ → ℝ) (p : DMParticle) : Prop :=
  p.fixedRelation = true → 0 < p.fpRel → 0 ≤ p.fp ∧ p.fn = rnd (rnd (p.fnRel / p.fpRel) * p.fp)

theorem setParameter_near (hr : DoubleRounding rnd) (h : Scattering p) {s : ℝ} (hs : 0 ≤ s) :
    ∃ p', Rounded.setInteractionParameter rnd U p s "Nuclei" = .ok p' ∧ SameRatio p p' ∧ p'.mass = p.mass ∧ Near 11 s (parameter rnd U p') ∧
      HasRatio rnd p' := by
  unfold Rounded.setInteractionParameter
  rw [if_pos rfl]
  rcases h.primary with hp | ⟨hx, hp, hn⟩
  · rw [if_pos hp]
    obtain ⟨f, g, h1, h2, h3, -⟩ := setSigmaProton_near (U := U) hr h.mass h.prefactor (fun _ => hp.ne') hs
    refine ⟨_, h1, ⟨rfl, rfl, rfl, rfl⟩, rfl, ?_, fun k _ => h3 k⟩
    simpa [parameter, hp] using h2
  · rw [if_neg (by linarith)]
    obtain ⟨f, g, h1, h2, h3, -⟩ := setSigmaNeutron_near (U := U) hr h.mass h.prefactor (fun _ => hn) hs
    refine ⟨_, h1, ⟨rfl, rfl, rfl, rfl⟩, rfl, ?_, fun _ k => ?_⟩
    · simpa [parameter, hp] using h2
    · simp [hp] at k

theorem setMass_near (hr : DoubleRounding rnd) (h : Scattering p) {m : ℝ} (hm : 0 < m) :
    ∃ p', Rounded.setMass rnd U p m = .ok p' ∧ SameRatio p p' ∧ p'.mass = m ∧ Near 11 (parameter rnd U p) (parameter rnd U p') ∧ HasRatio rnd p' := by
  have hsp : 0 ≤ Rounded.sigmaProton rnd U p := sigmaOf_nonneg hr h.prefactor h.mass _
  have hsn : 0 ≤ Rounded.sigmaNeutron rnd U p := sigmaOf_nonneg hr h.prefactor h.mass _
  unfold Rounded.setMass
  rcases h.primary with hp | ⟨hx, hp, hn⟩
  · obtain ⟨f, g, h1, h2, h3, h4⟩ := setSigmaProton_near (U := U) (p := { p with mass := m }) hr hm h.prefactor (fun _ => hp.ne') hsp
    by_cases hx : p.fixedRelation = true
    · rw [if_pos hx, if_pos hp.ne', h1]
      refine ⟨_, rfl, ⟨rfl, rfl, rfl, rfl⟩, rfl, ?_, fun k _ => h3 k⟩
      simpa [parameter, hp, Rounded.sigmaProton] using h2
    · rw [if_neg hx, h1, Outcome.bind_ok]
      have hx' : p.fixedRelation = false := by simpa using hx
      obtain ⟨f', g', k1, k2, k3, k4⟩ := setSigmaNeutron_near (U := U) (p := { p with mass := m, fp := f, fn := g }) hr hm h.prefactor
        (fun k => absurd k hx) hsn
      rw [k1]
      refine ⟨_, rfl, ⟨rfl, rfl, rfl, rfl⟩, rfl, ?_, fun k => absurd k hx⟩
      have : g' = f := k4 hx'
      simpa [parameter, hp, Rounded.sigmaProton, this] using h2
  · obtain ⟨f, g, h1, h2, h3, h4⟩ := setSigmaNeutron_near (U := U) (p := { p with mass := m }) hr hm h.prefactor (fun _ => hn) hsn
    rw [if_pos hx, if_neg (by simpa using hp), h1]
    refine ⟨_, rfl, ⟨rfl, rfl, rfl, rfl⟩, rfl, ?_, fun _ k => ?_⟩
    · simpa [parameter, hp, Rounded.sigmaNeutron] using h2
    · simp [hp] at k

theorem probe_near (hr : DoubleRounding rnd) {tried : List ℝ} (ht : ∀ x ∈ tried, 0 ≤ x) : ∀ {p : DMParticle}, Scattering p →
    ∃ p', Rounded.probe rnd U p "Nuclei" tried = .ok p' ∧ SameRatio p p' ∧ p'.mass = p.mass := by
  induction tried with
  | nil => intro p _; exact ⟨p, rfl, .refl p, rfl⟩
  | cons x xs ih =>
    intro p h
    obtain ⟨p1, h1, h2, h3, -, -⟩ := setParameter_near (U := U) hr h (ht x (by simp))
    obtain ⟨p2, k1, k2, k3⟩ := ih (fun y hy => ht y (by simp [hy])) (h.of h2 (h3 ▸ h.mass))
    exact ⟨p2, by rw [Rounded.probe, h1, Outcome.bind_ok, k1], h2.trans k2, k3.trans h3⟩

theorem upperLimit_near (hr : DoubleRounding rnd) (h : Scattering p) {tried : List ℝ} (ht : ∀ x ∈ tried, 0 ≤ x) :
    ∃ p', Rounded.upperLimit rnd U p "Nuclei" tried = .ok p' ∧ SameRatio p p' ∧ p'.mass = p.mass ∧ Near 11 (parameter rnd U p) (parameter rnd U p') ∧
      HasRatio rnd p' := by
  obtain ⟨p1, h1, h2, h3⟩ := probe_near (U := U) hr ht h
  obtain ⟨p2, k1, k2, k3, k4, k5⟩ := setParameter_near (U := U) (s := parameter rnd U p) hr (h.of h2 (h3 ▸ h.mass))
    (sigmaOf_nonneg hr h.prefactor h.mass _)
  exact ⟨p2, by rw [Rounded.upperLimit, get_eq, Outcome.bind_ok, h1, Outcome.bind_ok, k1], h2.trans k2, k3.trans h3, k4, k5⟩

/-! ### The theorems -/

/-- The arguments a caller may use: masses are positive, the root finder tries no negative cross sections. -/
def AllowedCall : Rounded.Call → Prop
  | .setMass m => 0 < m
  | .upperLimit tried => ∀ x ∈ tried, 0 ≤ x

/-- C88 (the functions). Without rounding, these are the functions of the exact model. -/
theorem C88_exact (U : Units) (p : DMParticle) (x : ℝ) (target : String) (day month year : ℤ) (h mi s : ℝ) :
    Rounded.setSigmaProton id U p x = p.setSigmaProton U x ∧ Rounded.setSigmaNeutron id U p x = p.setSigmaNeutron U x ∧
    Rounded.sigmaProton id U p = p.sigmaProton U ∧ Rounded.sigmaNeutron id U p = p.sigmaNeutron U ∧ Rounded.setMass id U p x = p.setMass U x ∧
    Rounded.getInteractionParameter id U p target = p.getInteractionParameter U target ∧
    Rounded.setInteractionParameter id U p x target = p.setInteractionParameter U x target ∧
    Rounded.fractionalDaysSinceJ2000 id day month year h mi s = fractionalDaysSinceJ2000 day month year h mi s ∧
    ∀ nuclei abund, Rounded.massFractions id nuclei abund = NuclearDetector.massFractions nuclei abund := by
  have hd : ∀ a b : ℝ, Rounded.div id a b = fdiv a b := fun a b => by
    unfold Rounded.div; cases fdiv a b <;> rfl
  have hq : ∀ a : ℝ, Rounded.sqrt id a = fsqrt a := fun a => by
    unfold Rounded.sqrt; cases fsqrt a <;> rfl
  have hc : ∀ (p : DMParticle) (x : ℝ), Rounded.couplingOf id U p x = p.couplingOf U x := fun p x => by
    unfold Rounded.couplingOf DMParticle.couplingOf
    simp only [hd, hq]
    rfl
  have h1 : ∀ (p : DMParticle) (x : ℝ), Rounded.setSigmaProton id U p x = p.setSigmaProton U x := fun p x => by
    unfold Rounded.setSigmaProton DMParticle.setSigmaProton
    simp only [hd, hc]
    rfl
  have h2 : ∀ (p : DMParticle) (x : ℝ), Rounded.setSigmaNeutron id U p x = p.setSigmaNeutron U x := fun p x => by
    unfold Rounded.setSigmaNeutron DMParticle.setSigmaNeutron
    simp only [hd, hc]
    rfl
  have h3 : ∀ p : DMParticle, Rounded.sigmaProton id U p = p.sigmaProton U := fun _ => rfl
  have h4 : ∀ p : DMParticle, Rounded.sigmaNeutron id U p = p.sigmaNeutron U := fun _ => rfl
  refine ⟨h1 p x, h2 p x, h3 p, h4 p, ?_, ?_, ?_, ?_, ?_⟩
  · unfold Rounded.setMass DMParticle.setMass
    simp only [h1, h2, h3, h4]
  · unfold Rounded.getInteractionParameter DMParticle.getInteractionParameter
    simp only [h3, h4]
  · unfold Rounded.setInteractionParameter DMParticle.setInteractionParameter
    simp only [h1, h2]
  · unfold Rounded.fractionalDaysSinceJ2000 fractionalDaysSinceJ2000
    simp only [id]
    split_ifs <;> ring
  · intro nuclei abund
    unfold Rounded.massFractions NuclearDetector.massFractions Rounded.fractions
    simp only [hd]
    rfl

/-- C88 (reading after writing). In `double` arithmetic, the interaction parameter read back is the one that was set up to eleven rounding errors; so
are the proton cross section and the neutron cross section after they were set. -/
theorem C88_read_back (hr : DoubleRounding rnd) (h : Scattering p) {s : ℝ} (hs : 0 ≤ s) :
    (∃ p' r, Rounded.setInteractionParameter rnd U p s "Nuclei" = .ok p' ∧ Rounded.getInteractionParameter rnd U p' "Nuclei" = .ok r ∧ Near 11 s r) ∧
    ((p.fixedRelation = true → p.fpRel ≠ 0) → ∃ p', Rounded.setSigmaProton rnd U p s = .ok p' ∧ Near 11 s (Rounded.sigmaProton rnd U p')) ∧
    ((p.fixedRelation = true → p.fnRel ≠ 0) → ∃ p', Rounded.setSigmaNeutron rnd U p s = .ok p' ∧ Near 11 s (Rounded.sigmaNeutron rnd U p')) := by
  refine ⟨?_, fun hrel => ?_, fun hrel => ?_⟩
  · obtain ⟨p', h1, -, -, h2, -⟩ := setParameter_near (U := U) hr h hs
    exact ⟨p', _, h1, get_eq, h2⟩
  · obtain ⟨f, g, h1, h2, -⟩ := setSigmaProton_near (U := U) hr h.mass h.prefactor hrel hs
    exact ⟨_, h1, h2⟩
  · obtain ⟨f, g, h1, h2, -⟩ := setSigmaNeutron_near (U := U) hr h.mass h.prefactor hrel hs
    exact ⟨_, h1, h2⟩

theorem step_near (hr : DoubleRounding rnd) (h : Scattering p) {c : Rounded.Call} (hc : AllowedCall c) :
    ∃ p', Rounded.step rnd U p c = .ok p' ∧ SameRatio p p' ∧ 0 < p'.mass ∧ Near 11 (parameter rnd U p) (parameter rnd U p') ∧ HasRatio rnd p' := by
  cases c with
  | setMass m =>
    obtain ⟨p', h1, h2, h3, h4, h5⟩ := setMass_near (U := U) hr h hc
    exact ⟨p', h1, h2, h3 ▸ hc, h4, h5⟩
  | upperLimit tried =>
    obtain ⟨p', h1, h2, h3, h4, h5⟩ := upperLimit_near (U := U) hr h hc
    exact ⟨p', h1, h2, h3 ▸ h.mass, h4, h5⟩

theorem run_near (hr : DoubleRounding rnd) (calls : List Rounded.Call) : (∀ c ∈ calls, AllowedCall c) → ∀ {p : DMParticle}, Scattering p →
    ∃ p', Rounded.run rnd U p calls = .ok p' ∧ SameRatio p p' ∧ 0 < p'.mass ∧ Near (11 * calls.length) (parameter rnd U p) (parameter rnd U p') ∧
      (calls ≠ [] → HasRatio rnd p') := by
  induction calls with
  | nil => intro _ p h; exact ⟨p, rfl, .refl p, h.mass, by simpa using Near.refl _, by simp⟩
  | cons c cs ih =>
    intro hc p h
    obtain ⟨p1, h1, h2, h3, h4, h5⟩ := step_near (U := U) hr h (hc c (by simp))
    obtain ⟨p2, k1, k2, k3, k4, k5⟩ := ih (fun y hy => hc y (by simp [hy])) (h.of h2 h3)
    refine ⟨p2, by rw [Rounded.run, h1, Outcome.bind_ok, k1], h2.trans k2, k3, ?_, fun _ => ?_⟩
    · have := h4.trans k4
      rwa [show 11 * (c :: cs).length = 11 + 11 * cs.length by simp; ring]
    · by_cases hcs : cs = []
      · subst hcs
        cases k1
        exact h5
      · exact k5 hcs

/-- C88 (drift). Changing the mass and computing limits, any number of times in any order, never fails, and every call adds at most eleven rounding
errors to the interaction parameter of the particle. -/
theorem C88_drift (hr : DoubleRounding rnd) (h : Scattering p) {calls : List Rounded.Call} (hc : ∀ c ∈ calls, AllowedCall c) {r : ℝ}
    (h0 : Rounded.getInteractionParameter rnd U p "Nuclei" = .ok r) :
    ∃ p' r', Rounded.run rnd U p calls = .ok p' ∧ Rounded.getInteractionParameter rnd U p' "Nuclei" = .ok r' ∧ Near (11 * calls.length) r r' := by
  rw [get_eq] at h0
  cases h0
  obtain ⟨p', h1, -, -, h2, -⟩ := run_near (U := U) hr calls hc h
  exact ⟨p', _, h1, get_eq, h2⟩

/-- C88 (no drift of the ratio). With a fixed ratio, after any such history of at least one call, the neutron coupling is the given multiple of the
proton coupling up to two rounding errors, however long the history was. -/
theorem C88_ratio (hr : DoubleRounding rnd) (h : Scattering p) (hx : p.fixedRelation = true) (hp : 0 < p.fpRel) (hn : 0 ≤ p.fnRel)
    {calls : List Rounded.Call} (hc : ∀ c ∈ calls, AllowedCall c) (hne : calls ≠ []) {p' : DMParticle} (hrun : Rounded.run rnd U p calls = .ok p') :
    Near 2 (p.fnRel / p.fpRel * p'.fp) p'.fn := by
  obtain ⟨p1, h1, h2, -, -, h3⟩ := run_near (U := U) hr calls hc h
  rw [hrun] at h1
  cases h1
  obtain ⟨k1, k2⟩ := h3 hne (h2.fixedRelation.trans hx) (h2.fpRel ▸ hp)
  rw [k2, h2.fnRel, h2.fpRel]
  exact Near.step hr (by positivity) k1 ((Near.refl _).round hr (by positivity))

/-- Few rounding errors, as a bound of the relative error. -/
theorem Spec.Near.relative {n : ℕ} {x y : ℝ} (hx : 0 ≤ x) (h : Near (11 * n) x y) (hn : n ≤ 10 ^ 13) : |y - x| ≤ 12 * n / 2 ^ 53 * x := by
  have hn' : (n : ℝ) ≤ 10 ^ 13 := by exact_mod_cast hn
  have hn0 : (0 : ℝ) ≤ n := Nat.cast_nonneg n
  have h1 : 1 - (11 * n : ℝ) / 2 ^ 53 ≤ (1 - 1 / 2 ^ 53 : ℝ) ^ (11 * n) := by
    have := one_add_mul_le_pow (a := (-(1 / 2 ^ 53) : ℝ)) (by norm_num) (11 * n)
    push_cast at this
    calc 1 - (11 * n : ℝ) / 2 ^ 53 = 1 + 11 * n * -(1 / 2 ^ 53) := by ring
      _ ≤ (1 + -(1 / 2 ^ 53)) ^ (11 * n) := this
      _ = _ := by ring_nf
  have h2 : (1 + 1 / 2 ^ 53 : ℝ) ^ (11 * n) ≤ 1 + 12 * n / 2 ^ 53 := by
    have e1 : (1 + 1 / 2 ^ 53 : ℝ) ^ (11 * n) ≤ Real.exp ((11 * n : ℕ) * (1 / 2 ^ 53)) := by
      rw [Real.exp_nat_mul]
      exact pow_le_pow_left₀ (by norm_num) (by have := Real.add_one_le_exp (1 / 2 ^ 53 : ℝ); linarith) _
    refine e1.trans ?_
    set t : ℝ := (11 * n : ℕ) * (1 / 2 ^ 53) with ht
    have ht' : t = 11 * n / 2 ^ 53 := by rw [ht]; push_cast; ring
    have ht0 : 0 ≤ t := by rw [ht']; positivity
    have ht1 : t ≤ 1 / 12 := by
      rw [ht', div_le_iff₀ (by norm_num)]
      nlinarith
    have h3 := Real.abs_exp_sub_one_sub_id_le (x := t) (by rw [abs_of_nonneg ht0]; linarith)
    have h4 := (abs_le.1 h3).2
    have h5 : t ^ 2 ≤ t / 11 := by nlinarith
    have h6 : 12 * n / 2 ^ 53 = t + t / 11 := by rw [ht']; ring
    rw [h6]
    linarith
  rw [abs_le]
  constructor
  · have := h.1
    have k := mul_le_mul_of_nonneg_left h1 hx
    have e : (11 * n : ℝ) / 2 ^ 53 * x ≤ 12 * n / 2 ^ 53 * x := by gcongr; norm_num
    nlinarith
  · have := h.2
    have k := mul_le_mul_of_nonneg_left h2 hx
    nlinarith

/-- The calls of `Upper_Limit_Curve` on the particle: for every mass (those below the threshold are left out beforehand) the mass is set and a limit
computed; at the end the original mass is restored. -/
def curveCalls (masses : List (ℝ × List ℝ)) (original : ℝ) : List Rounded.Call :=
  (masses.flatMap fun x => [.setMass x.1, .upperLimit x.2]) ++ [.setMass original]

/-- C88 (limit curves). After a limit curve of `n` masses the particle has its mass again, exactly, and its interaction parameter up to a relative error
of `12 (2n + 1) 2⁻⁵³`. -/
theorem C88_curve (hr : DoubleRounding rnd) (h : Scattering p) {masses : List (ℝ × List ℝ)} (hm : ∀ x ∈ masses, 0 < x.1 ∧ ∀ y ∈ x.2, 0 ≤ y)
    (hn : 2 * masses.length + 1 ≤ 10 ^ 13) {r : ℝ} (h0 : Rounded.getInteractionParameter rnd U p "Nuclei" = .ok r) :
    ∃ p' r', Rounded.run rnd U p (curveCalls masses p.mass) = .ok p' ∧ p'.mass = p.mass ∧
      Rounded.getInteractionParameter rnd U p' "Nuclei" = .ok r' ∧ |r' - r| ≤ 12 * (2 * masses.length + 1) / 2 ^ 53 * r := by
  have hall : ∀ c ∈ curveCalls masses p.mass, AllowedCall c := by
    intro c hc
    simp only [curveCalls, List.mem_append, List.mem_flatMap, List.mem_cons, List.not_mem_nil, or_false] at hc
    rcases hc with ⟨x, hx, rfl | rfl⟩ | rfl
    · exact (hm x hx).1
    · exact (hm x hx).2
    · exact h.mass
  have hlen : (curveCalls masses p.mass).length = 2 * masses.length + 1 := by
    unfold curveCalls
    rw [List.length_append, List.length_flatMap]
    have : ∀ l : List (ℝ × List ℝ), (l.map fun x => [Rounded.Call.setMass x.1, .upperLimit x.2].length).sum = 2 * l.length := by
      intro l
      induction l with
      | nil => rfl
      | cons a l ih => rw [List.map_cons, List.sum_cons, ih, List.length_cons]; simp; ring
    rw [this]
    rfl
  obtain ⟨p', r', h1, h2, h3⟩ := C88_drift (U := U) hr h hall h0
  refine ⟨p', r', h1, ?_, h2, ?_⟩
  · have hrun : ∀ (l : List Rounded.Call) (c : Rounded.Call) (q : DMParticle),
        Rounded.run rnd U q (l ++ [c]) = (Rounded.run rnd U q l >>= fun q' => Rounded.step rnd U q' c) := by
      intro l c
      induction l with
      | nil => intro q; simp only [List.nil_append, Rounded.run, Outcome.bind_ok]; cases Rounded.step rnd U q c <;> rfl
      | cons a l ih =>
        intro q
        simp only [List.cons_append, Rounded.run]
        cases Rounded.step rnd U q a with
        | ok q1 => exact ih q1
        | _ => rfl
    unfold curveCalls at h1
    rw [hrun] at h1
    obtain ⟨q, g1, g2⟩ := Outcome.bind_eq_ok.1 h1
    have hall' : ∀ c ∈ masses.flatMap fun x => [Rounded.Call.setMass x.1, .upperLimit x.2], AllowedCall c := fun c hc =>
      hall c (List.mem_append_left _ hc)
    obtain ⟨q', k1, k2, k3, -⟩ := run_near (U := U) hr _ hall' h
    rw [g1] at k1
    cases k1
    obtain ⟨q'', e1, -, e2, -⟩ := setMass_near (U := U) hr (h.of k2 k3) h.mass
    have g2 : Rounded.setMass rnd U q p.mass = .ok p' := g2
    rw [e1] at g2
    cases g2
    exact e2
  · rw [get_eq] at h0
    cases h0
    rw [hlen] at h3
    have := h3.relative (sigmaOf_nonneg hr h.prefactor h.mass _) hn
    push_cast at this
    exact this

/-! ### Day counts -/

theorem isDouble_quarter {n : ℤ} (hn : |n| < 2 ^ 53) : IsDouble ((n : ℝ) / 4) := ⟨n, -2, hn, by norm_num [div_eq_mul_inv]⟩

theorem isDouble_half {n : ℤ} (hn : |n| < 2 ^ 53) : IsDouble ((n : ℝ) / 2) := ⟨n, -1, hn, by norm_num [div_eq_mul_inv]⟩

theorem isDouble_int {n : ℤ} (hn : |n| < 2 ^ 53) : IsDouble (n : ℝ) := ⟨n, 0, hn, by simp⟩

theorem floor_months_rnd (hr : DoubleRounding rnd) {k : ℤ} (h1 : 4 ≤ k) (h2 : k ≤ 15) :
    ⌊rnd (rnd 30.61 * (k : ℝ))⌋ = ⌊(30.61 : ℝ) * (k : ℝ)⌋ := by
  have hk1 : (4 : ℝ) ≤ k := by exact_mod_cast h1
  have hk2 : (k : ℝ) ≤ 15 := by exact_mod_cast h2
  have a1 := abs_le.1 (hr.close 30.61)
  rw [abs_of_pos (by norm_num)] at a1
  have hpos : 0 ≤ rnd 30.61 * (k : ℝ) := mul_nonneg (rnd_nonneg hr (by norm_num)) (by linarith)
  have a2 := abs_le.1 (hr.close (rnd 30.61 * (k : ℝ)))
  rw [abs_of_nonneg hpos] at a2
  have b1 : rnd 30.61 * (k : ℝ) ≤ 30.61 * k + 0.0001 := by nlinarith [a1.2]
  have b2 : 30.61 * k - 0.0001 ≤ rnd 30.61 * (k : ℝ) := by nlinarith [a1.1]
  have c1 : rnd (rnd 30.61 * (k : ℝ)) ≤ 30.61 * k + 0.01 := by linarith [a2.2]
  have c2 : 30.61 * (k : ℝ) - 0.01 ≤ rnd (rnd 30.61 * (k : ℝ)) := by linarith [a2.1]
  have hfl := floor_months k
  rw [Int.floor_eq_iff, hfl]
  interval_cases k <;> norm_num at c1 c2 ⊢ <;> constructor <;> linarith

/-- The whole days of the count are exact. -/
theorem days_exact (hr : DoubleRounding rnd) {month year : ℤ} (hm : 1 ≤ month ∧ month ≤ 12) (hy : |year| ≤ 10 ^ 9) :
    ∃ N : ℤ, |N| ≤ 366 * 10 ^ 9 + 1000 ∧ (1 ≤ year → 0 ≤ N ∧ N ≤ 366 * year + 1000) ∧
      (∀ day h mi s, fractionalDaysSinceJ2000 day month year h mi s = N + ((day : ℝ) - 730563.5 + h / 24 + mi / 1440 + s / 86400)) ∧
      ∀ day h mi s, Rounded.fractionalDaysSinceJ2000 rnd day month year h mi s =
        rnd (N + rnd (rnd (rnd (rnd ((day : ℝ) - 730563.5) + rnd (h / 24)) + rnd (mi / 1440)) + rnd (s / 86400))) := by
  obtain ⟨hy1, hy2⟩ := abs_le.1 hy
  have e365 : rnd 365.25 = 365.25 := by
    have := hr.exact _ (isDouble_quarter (n := 1461) (by norm_num))
    norm_num at this ⊢
    exact this
  have e730 : rnd 730563.5 = 730563.5 := by
    have := hr.exact _ (isDouble_half (n := 1461127) (by norm_num))
    norm_num at this ⊢
    exact this
  have hyear : ∀ y : ℤ, |y| ≤ 10 ^ 9 + 1 → ⌊rnd (rnd 365.25 * (y : ℝ))⌋ = ⌊(365.25 : ℝ) * (y : ℝ)⌋ ∧ |⌊(365.25 : ℝ) * (y : ℝ)⌋| ≤ 366 * 10 ^ 9 + 500 := by
    intro y hy
    obtain ⟨hy1, hy2⟩ := abs_le.1 hy
    constructor
    · rw [e365, hr.exact]
      have := isDouble_quarter (n := 1461 * y) (by rw [abs_lt]; constructor <;> omega)
      convert this using 1
      push_cast
      ring
    · rw [floor_julian, abs_le]
      constructor <;> omega
  have hint : ∀ n : ℤ, |n| ≤ 366 * 10 ^ 9 + 1000 → rnd (0 + rnd ((n : ℝ))) = n := by
    intro n hn
    have := hr.exact _ (isDouble_int (n := n) (by omega))
    rw [this, zero_add, this]
  by_cases hmm : month = 1 ∨ month = 2
  · obtain ⟨k1, k2⟩ := hyear (year - 1) (by rw [abs_le]; constructor <;> omega)
    have k3 := floor_months_rnd hr (k := month + 13) (by omega) (by omega)
    have hN : |⌊(365.25 : ℝ) * ((year - 1 : ℤ) : ℝ)⌋ + ⌊(30.61 : ℝ) * ((month + 13 : ℤ) : ℝ)⌋| ≤ 366 * 10 ^ 9 + 1000 := by
      rw [floor_months]
      rw [abs_le] at k2 ⊢
      constructor <;> omega
    refine ⟨_, hN, fun h1 => ?_, fun day h mi s => ?_, fun day h mi s => ?_⟩
    · rw [floor_julian, floor_months]
      constructor <;> omega
    · unfold fractionalDaysSinceJ2000
      rw [if_pos hmm]
      push_cast
      ring
    · unfold Rounded.fractionalDaysSinceJ2000
      simp only [if_pos hmm, k1, k3, e730]
      have := hint _ hN
      push_cast at this ⊢
      rw [this]
  · obtain ⟨k1, k2⟩ := hyear year (by rw [abs_le]; constructor <;> omega)
    have k3 := floor_months_rnd hr (k := month + 1) (by omega) (by omega)
    have hN : |⌊(365.25 : ℝ) * (year : ℝ)⌋ + ⌊(30.61 : ℝ) * ((month + 1 : ℤ) : ℝ)⌋| ≤ 366 * 10 ^ 9 + 1000 := by
      rw [floor_months]
      rw [abs_le] at k2 ⊢
      constructor <;> omega
    refine ⟨_, hN, fun h1 => ?_, fun day h mi s => ?_, fun day h mi s => ?_⟩
    · rw [floor_julian, floor_months]
      constructor <;> omega
    · unfold fractionalDaysSinceJ2000
      rw [if_neg hmm]
      push_cast
      ring
    · unfold Rounded.fractionalDaysSinceJ2000
      simp only [if_neg hmm, k1, k3, e730]
      have := hint _ hN
      push_cast at this ⊢
      rw [this]

/-- C88 (days). The day count is computed without any rounding error at midnight, for the dates of two billion years. -/
theorem C88_midnight (hr : DoubleRounding rnd) {day month year : ℤ} (hm : 1 ≤ month ∧ month ≤ 12) (hd : 1 ≤ day ∧ day ≤ 31) (hy : |year| ≤ 10 ^ 9) :
    Rounded.fractionalDaysSinceJ2000 rnd day month year 0 0 0 = fractionalDaysSinceJ2000 day month year 0 0 0 := by
  obtain ⟨N, hN, -, h1, h2⟩ := days_exact hr hm hy
  rw [h1, h2]
  have h0 : rnd 0 = 0 := by
    have := hr.close 0
    simpa using this
  have hx : rnd ((day : ℝ) - 730563.5) = day - 730563.5 := by
    apply hr.exact
    have := isDouble_half (n := 2 * day - 1461127) (by rw [abs_lt]; constructor <;> omega)
    convert this using 1
    push_cast
    ring
  simp only [zero_div, h0, add_zero, hx]
  apply hr.exact
  obtain ⟨hN1, hN2⟩ := abs_le.1 hN
  have := isDouble_half (n := 2 * N + 2 * day - 1461127) (by rw [abs_lt]; constructor <;> omega)
  convert this using 1
  push_cast
  ring

/-- C88 (times). At any other time of the day the error is below a billionth of a day (90 microseconds), from 1800 to 2200. -/
theorem C88_time_of_day (hr : DoubleRounding rnd) {day month year : ℤ} (hm : 1 ≤ month ∧ month ≤ 12) (hd : 1 ≤ day ∧ day ≤ 31)
    (hy : 1800 ≤ year ∧ year ≤ 2200) {h mi s : ℝ} (hh : 0 ≤ h ∧ h ≤ 24) (hmi : 0 ≤ mi ∧ mi ≤ 60) (hs : 0 ≤ s ∧ s ≤ 60) :
    |Rounded.fractionalDaysSinceJ2000 rnd day month year h mi s - fractionalDaysSinceJ2000 day month year h mi s| ≤ 1 / 10 ^ 9 := by
  obtain ⟨N, -, hN, h1, h2⟩ := days_exact hr hm (year := year) (by rw [abs_le]; constructor <;> omega)
  obtain ⟨hN1, hN2⟩ := hN (by omega)
  rw [h1, h2]
  have hN1' : (0 : ℝ) ≤ N := by exact_mod_cast hN1
  have hN2' : (N : ℝ) ≤ 806200 := by
    have : N ≤ 806200 := by omega
    exact_mod_cast this
  have hd1 : (1 : ℝ) ≤ day := by exact_mod_cast hd.1
  have hd2 : (day : ℝ) ≤ 31 := by exact_mod_cast hd.2
  have hx : rnd ((day : ℝ) - 730563.5) = day - 730563.5 := by
    apply hr.exact
    have := isDouble_half (n := 2 * day - 1461127) (by rw [abs_lt]; constructor <;> omega)
    convert this using 1
    push_cast
    ring
  rw [hx]
  have err : ∀ {x B : ℝ}, -B ≤ x → x ≤ B → x - B / 2 ^ 53 ≤ rnd x ∧ rnd x ≤ x + B / 2 ^ 53 := by
    intro x B k1 k2
    have k3 := (hr.close x).trans (div_le_div_of_nonneg_right (abs_le.2 ⟨k1, k2⟩) (by norm_num))
    obtain ⟨k4, k5⟩ := abs_le.1 k3
    constructor <;> linarith
  obtain ⟨a1, a2⟩ := err (x := h / 24) (B := 1) (by linarith [hh.1]) (by linarith [hh.2])
  obtain ⟨b1, b2⟩ := err (x := mi / 1440) (B := 1) (by linarith [hmi.1]) (by linarith [hmi.2])
  obtain ⟨c1, c2⟩ := err (x := s / 86400) (B := 1) (by linarith [hs.1]) (by linarith [hs.2])
  obtain ⟨hh1, hh2⟩ := hh
  obtain ⟨hm1, hm2⟩ := hmi
  obtain ⟨hs1, hs2⟩ := hs
  norm_num at a1 a2 b1 b2 c1 c2
  obtain ⟨d1, d2⟩ := err (x := (day : ℝ) - 730563.5 + rnd (h / 24)) (B := 800000) (by linarith) (by linarith)
  generalize rnd ((day : ℝ) - 730563.5 + rnd (h / 24)) = y1 at d1 d2 ⊢
  norm_num at d1 d2
  obtain ⟨e1, e2⟩ := err (x := y1 + rnd (mi / 1440)) (B := 800000) (by linarith) (by linarith)
  generalize rnd (y1 + rnd (mi / 1440)) = y2 at e1 e2 ⊢
  norm_num at e1 e2
  obtain ⟨f1, f2⟩ := err (x := y2 + rnd (s / 86400)) (B := 800000) (by linarith) (by linarith)
  generalize rnd (y2 + rnd (s / 86400)) = y3 at f1 f2 ⊢
  norm_num at f1 f2
  obtain ⟨g1, g2⟩ := err (x := (N : ℝ) + y3) (B := 1700000) (by linarith) (by linarith)
  norm_num at g1 g2
  rw [abs_le]
  constructor <;> norm_num <;> linarith

/-! ### Mass fractions -/

theorem accumulate_near (hr : DoubleRounding rnd) (l : List ℝ) (hl : ∀ m ∈ l, 0 ≤ m) : Near l.length l.sum (Rounded.accumulate rnd l) := by
  have key : ∀ (l : List ℝ), (∀ m ∈ l, 0 ≤ m) → ∀ (k : ℕ) (x y : ℝ), 0 ≤ x → Near k x y →
      Near (k + l.length) (x + l.sum) (l.foldl (fun a b => rnd (a + b)) y) := by
    intro l
    induction l with
    | nil => intro _ k x y _ h; simpa using h
    | cons a l ih =>
      intro hl k x y hx h
      have ha := hl a (by simp)
      have h1 : Near k (x + a) (y + a) := by
        have u0 : (1 - 1 / 2 ^ 53 : ℝ) ^ k ≤ 1 := pow_le_one₀ (by norm_num) (by norm_num)
        have u1 : 1 ≤ (1 + 1 / 2 ^ 53 : ℝ) ^ k := one_le_pow₀ (by norm_num)
        constructor
        · have := h.1
          nlinarith
        · have := h.2
          nlinarith
      have h2 := ih (fun m hm => hl m (by simp [hm])) (k + 1) (x + a) (rnd (y + a)) (by positivity) (h1.round hr (by positivity))
      rw [List.sum_cons, List.length_cons, List.foldl_cons, ← add_assoc x, show k + (l.length + 1) = k + 1 + l.length by ring]
      exact h2
  have := key l hl 0 0 0 le_rfl (Near.refl 0)
  simpa [Rounded.accumulate] using this

/-- C88 (mass fractions). The stored fractions are those of the exact composition up to one rounding error per element and one more. -/
theorem C88_fractions (hr : DoubleRounding rnd) {l : List ℝ} (hl : ∀ m ∈ l, 0 < m) {i : ℕ} (hi : i < l.length) :
    ∃ fs f, Rounded.fractions rnd l = .ok fs ∧ fs.length = l.length ∧ fs[i]? = some f ∧
      f * (1 - 1 / 2 ^ 53) ^ l.length ≤ l[i] / l.sum * (1 + 1 / 2 ^ 53) ∧ l[i] / l.sum * (1 - 1 / 2 ^ 53) ≤ f * (1 + 1 / 2 ^ 53) ^ l.length := by
  have hne : l ≠ [] := by rintro rfl; simp at hi
  have hsum : 0 < l.sum := List.sum_pos l hl hne
  have hacc := accumulate_near hr l fun m hm => (hl m hm).le
  have hM := hacc.pos hsum
  have hm := hl _ (List.getElem_mem hi)
  have h1 : Near 1 (l[i] / Rounded.accumulate rnd l) (rnd (l[i] / Rounded.accumulate rnd l)) := (Near.refl _).round hr (by positivity)
  have hf : Rounded.fractions rnd l = .ok (l.map fun m => rnd (m / Rounded.accumulate rnd l)) := by
    apply collect_ok
    intro m _
    simp [Rounded.div, fdiv_ok hM.ne']
  refine ⟨_, rnd (l[i] / Rounded.accumulate rnd l), hf, by simp, by simp [hi], ?_, ?_⟩
  · have k := h1.2
    rw [pow_one] at k
    have : l[i] / Rounded.accumulate rnd l * (1 - 1 / 2 ^ 53) ^ l.length ≤ l[i] / l.sum := by
      rw [div_mul_eq_mul_div, div_le_div_iff₀ hM hsum]
      have := mul_le_mul_of_nonneg_left hacc.1 hm.le
      nlinarith
    have hp : (0 : ℝ) ≤ (1 - 1 / 2 ^ 53) ^ l.length := pow_nonneg u_pos.le _
    have h2 := mul_le_mul_of_nonneg_right k hp
    nlinarith
  · have k := h1.1
    rw [pow_one] at k
    have : l[i] / l.sum ≤ l[i] / Rounded.accumulate rnd l * (1 + 1 / 2 ^ 53) ^ l.length := by
      rw [div_mul_eq_mul_div, div_le_div_iff₀ hsum hM]
      have := mul_le_mul_of_nonneg_left hacc.2 hm.le
      nlinarith
    have hp : (0 : ℝ) ≤ (1 + 1 / 2 ^ 53) ^ l.length := by positivity
    have h2 := mul_le_mul_of_nonneg_right k hp
    nlinarith

/-- The sum of 56, 4, 17 and 23 percent in `double` arithmetic. -/
theorem accumulate_percent (hr : DoubleRounding rnd) :
    Rounded.accumulate rnd ([0.56, 0.04, 0.17, 0.23].map rnd) = 4503599627370497 / 2 ^ 52 := by
  have step : ∀ (x : ℝ) (m e : ℤ), 2 ^ 52 < m → m < 2 ^ 53 → |m * (2 : ℝ) ^ e - x| < 2 ^ e / 2 → rnd x = m * 2 ^ e :=
    fun x m e h1 h2 h3 => hr.eq h1 h2 h3
  have a1 := step 0.56 5044031582654956 (-53) (by norm_num) (by norm_num) (by rw [abs_lt]; norm_num)
  have a2 := step 0.04 5764607523034235 (-57) (by norm_num) (by norm_num) (by rw [abs_lt]; norm_num)
  have a3 := step 0.17 6124895493223875 (-55) (by norm_num) (by norm_num) (by rw [abs_lt]; norm_num)
  have a4 := step 0.23 8286623314361713 (-55) (by norm_num) (by norm_num) (by rw [abs_lt]; norm_num)
  have b1 := step (0 + rnd 0.56) 5044031582654956 (-53) (by norm_num) (by norm_num) (by rw [a1, abs_lt]; norm_num)
  have b2 := step (rnd (0 + rnd 0.56) + rnd 0.04) 5404319552844596 (-53) (by norm_num) (by norm_num) (by rw [b1, a2, abs_lt]; norm_num)
  have b3 := step (rnd (rnd (0 + rnd 0.56) + rnd 0.04) + rnd 0.17) 6935543426150565 (-53) (by norm_num) (by norm_num)
    (by rw [b2, a3, abs_lt]; norm_num)
  have b4 := step (rnd (rnd (rnd (0 + rnd 0.56) + rnd 0.04) + rnd 0.17) + rnd 0.23) 4503599627370497 (-52) (by norm_num) (by norm_num)
    (by rw [b3, a4, abs_lt]; norm_num)
  simp only [Rounded.accumulate, List.map_cons, List.map_nil, List.foldl_cons, List.foldl_nil]
  rw [b4]
  norm_num

/-- C89. Shares by mass whose sum stays below one by more than the rounding errors are stored as given. -/
theorem C89_shares_partial (hr : DoubleRounding rnd) {nuclei : List Nucleus} {l : List ℝ} (hne : l ≠ []) (hl : ∀ x ∈ l, 0 ≤ x)
    (hs : l.sum * (1 + 1 / 2 ^ 53) ^ l.length ≤ 1) : Rounded.massFractions rnd nuclei l = .ok l := by
  unfold Rounded.massFractions
  rw [if_neg]
  rintro (h | h)
  · exact hne h
  · exact absurd ((accumulate_near hr l hl).2.trans hs) (not_le.2 h)

/-- C89. Shares by mass that add up to exactly one can be taken for numbers of atoms: their sum in `double` arithmetic is larger than one.
Of four elements with 56, 4, 17 and 23 percent of the mass, the first one being at least ten times lighter than the others, the first one is given less
than 12 percent. -/
theorem C89_fails_shares (hr : DoubleRounding rnd) {A B C D : Nucleus} (hA : 0 < A.averageMass) (hB : 10 * A.averageMass ≤ B.averageMass)
    (hC : 10 * A.averageMass ≤ C.averageMass) (hD : 10 * A.averageMass ≤ D.averageMass) :
    NuclearDetector.massFractions [A, B, C, D] [0.56, 0.04, 0.17, 0.23] = .ok [0.56, 0.04, 0.17, 0.23] ∧
    ∃ (fs : List ℝ) (f : ℝ), Rounded.massFractions rnd [A, B, C, D] ([0.56, 0.04, 0.17, 0.23].map rnd) = .ok fs ∧ fs[0]? = some f ∧ f < (0.12 : ℝ) := by
  constructor
  · unfold NuclearDetector.massFractions
    rw [if_neg (by rintro (h | h); · simp at h
                   · norm_num at h)]
  · have near : ∀ {x : ℝ}, 0 ≤ x → x * (1 - 1 / 2 ^ 53) ≤ rnd x ∧ rnd x ≤ x * (1 + 1 / 2 ^ 53) := fun hx => by
      have := (Near.refl _).round hr hx
      simpa [Near] using this
    obtain ⟨p1, p2⟩ := near (x := 0.56) (by norm_num)
    obtain ⟨q1, -⟩ := near (x := 0.04) (by norm_num)
    obtain ⟨r1, -⟩ := near (x := 0.17) (by norm_num)
    obtain ⟨s1, -⟩ := near (x := 0.23) (by norm_num)
    have hp : 0 < rnd 0.56 := by norm_num at p1; linarith
    have hq : 0 < rnd 0.04 := by norm_num at q1; linarith
    have hrr : 0 < rnd 0.17 := by norm_num at r1; linarith
    have hss : 0 < rnd 0.23 := by norm_num at s1; linarith
    have hB0 : 0 < B.averageMass := by linarith
    have hC0 : 0 < C.averageMass := by linarith
    have hD0 : 0 < D.averageMass := by linarith
    obtain ⟨u1, u2⟩ := near (mul_pos hp hA).le
    obtain ⟨v1, -⟩ := near (mul_pos hq hB0).le
    obtain ⟨w1, -⟩ := near (mul_pos hrr hC0).le
    obtain ⟨x1, -⟩ := near (mul_pos hss hD0).le
    set l := [rnd (rnd 0.56 * A.averageMass), rnd (rnd 0.04 * B.averageMass), rnd (rnd 0.17 * C.averageMass), rnd (rnd 0.23 * D.averageMass)]
      with hl
    have hmf : Rounded.massFractions rnd [A, B, C, D] ([0.56, 0.04, 0.17, 0.23].map rnd) = Rounded.fractions rnd l := by
      unfold Rounded.massFractions
      rw [if_pos (.inr (by rw [accumulate_percent hr]; norm_num))]
      simp [List.range_succ, collect, vecGet, hl]
    have hpos : ∀ m ∈ l, 0 < m := by
      have k : ∀ {x : ℝ}, 0 < x → 0 < rnd x := fun hx => rnd_pos hr hx
      simp only [hl, List.mem_cons, List.not_mem_nil, or_false]
      rintro m (rfl | rfl | rfl | rfl) <;> apply k <;> positivity
    obtain ⟨fs, f, h1, -, h2, h3, -⟩ := C88_fractions hr hpos (i := 0) (by simp [hl])
    refine ⟨fs, f, hmf.trans h1, h2, ?_⟩
    have hsum : l.sum = rnd (rnd 0.56 * A.averageMass) + rnd (rnd 0.04 * B.averageMass) + rnd (rnd 0.17 * C.averageMass) +
        rnd (rnd 0.23 * D.averageMass) := by simp [hl]; ring
    have h0 : l[0]'(by simp [hl]) = rnd (rnd 0.56 * A.averageMass) := by simp [hl]
    have hlen : l.length = 4 := by simp [hl]
    rw [h0, hlen] at h3
    generalize A.averageMass = a at *
    generalize B.averageMass = b at *
    generalize C.averageMass = c at *
    generalize D.averageMass = d at *
    have ua : rnd (rnd 0.56 * a) ≤ 0.5601 * a := by
      have : rnd 0.56 * a ≤ 0.56 * (1 + 1 / 2 ^ 53) * a := mul_le_mul_of_nonneg_right p2 hA.le
      norm_num at u2 this ⊢
      nlinarith
    have va : 0.3999 * a ≤ rnd (rnd 0.04 * b) := by
      have : 0.04 * (1 - 1 / 2 ^ 53) * b ≤ rnd 0.04 * b := mul_le_mul_of_nonneg_right q1 hB0.le
      norm_num at v1 this ⊢
      nlinarith
    have wa : 1.6999 * a ≤ rnd (rnd 0.17 * c) := by
      have : 0.17 * (1 - 1 / 2 ^ 53) * c ≤ rnd 0.17 * c := mul_le_mul_of_nonneg_right r1 hC0.le
      norm_num at w1 this ⊢
      nlinarith
    have xa : 2.2999 * a ≤ rnd (rnd 0.23 * d) := by
      have : 0.23 * (1 - 1 / 2 ^ 53) * d ≤ rnd 0.23 * d := mul_le_mul_of_nonneg_right s1 hD0.le
      norm_num at x1 this ⊢
      nlinarith
    have hy0 : 0 < rnd (rnd 0.56 * a) := rnd_pos hr (by positivity)
    have hle : rnd (rnd 0.56 * a) / l.sum ≤ 0.115 := by
      rw [hsum, div_le_iff₀ (by linarith)]
      norm_num at ua va wa xa ⊢
      linarith
    have h4 : f * (1 - 1 / 2 ^ 53) ^ 4 ≤ 0.115 * (1 + 1 / 2 ^ 53) := h3.trans (mul_le_mul_of_nonneg_right hle (by norm_num))
    norm_num at h4 ⊢
    linarith

/-! ### Non-vacuity -/

/-- Rounding to nearest is such a rounding; the particles as constructed scatter; and a curve of two masses is an allowed history. -/
example (U : Units) : ∃ rnd p r, DoubleRounding rnd ∧ DMParticle.makeSI U 1 1 = .ok p ∧ Scattering p ∧ p.fixedRelation = true ∧ 0 < p.fpRel ∧
    Rounded.getInteractionParameter rnd U p "Nuclei" = .ok r ∧
    ∃ p' r', Rounded.run rnd U p (curveCalls [(2, [1, 3]), (5, [])] p.mass) = .ok p' ∧ p'.mass = p.mass ∧
      Rounded.getInteractionParameter rnd U p' "Nuclei" = .ok r' ∧ |r' - r| ≤ 12 * 5 / 2 ^ 53 * r := by
  obtain ⟨f, -, -, hp, -⟩ := makeSI_eq (U := U) (m := 1) (s := 1) one_pos zero_le_one
  have hs : Scattering { DMParticle.standard U 1 1 (.SI .contact (U.aEM * U.mElectron) 0) with fp := f, fn := f } :=
    ⟨one_pos, one_pos, .inl (by simp [DMParticle.standard])⟩
  refine ⟨nearest, _, _, nearest_double, hp, hs, rfl, by simp [DMParticle.standard], get_eq, ?_⟩
  obtain ⟨p', r', h1, h2, h3, h4⟩ := C88_curve (U := U) nearest_double hs (masses := [(2, [1, 3]), (5, [])]) (by simp) (by norm_num) get_eq
  refine ⟨p', r', h1, h2, h3, ?_⟩
  norm_num at h4 ⊢
  exact h4

/-- Hydrogen, carbon, nitrogen and oxygen are four such elements. -/
example : ∃ fs f, Rounded.massFractions nearest (([(1, 1), (6, 12), (7, 14), (8, 16)] : List (ℕ × ℕ)).map fun x =>
      { Z := some x.1, isotopes := [{ Z := x.1, A := x.2, abundance := 1, spin := 0, sp := 0, sn := 0, mass := x.2 }], name := "" })
      ([0.56, 0.04, 0.17, 0.23].map nearest) = .ok fs ∧ fs[0]? = some f ∧ f < (0.12 : ℝ) := by
  have h := C89_fails_shares nearest_double
    (A := { Z := some 1, isotopes := [{ Z := 1, A := 1, abundance := 1, spin := 0, sp := 0, sn := 0, mass := (1 : ℕ) }], name := "" })
    (B := { Z := some 6, isotopes := [{ Z := 6, A := 12, abundance := 1, spin := 0, sp := 0, sn := 0, mass := (12 : ℕ) }], name := "" })
    (C := { Z := some 7, isotopes := [{ Z := 7, A := 14, abundance := 1, spin := 0, sp := 0, sn := 0, mass := (14 : ℕ) }], name := "" })
    (D := { Z := some 8, isotopes := [{ Z := 8, A := 16, abundance := 1, spin := 0, sp := 0, sn := 0, mass := (16 : ℕ) }], name := "" })
    (by norm_num [Nucleus.averageMass]) (by norm_num [Nucleus.averageMass]) (by norm_num [Nucleus.averageMass]) (by norm_num [Nucleus.averageMass])
  exact h.2

end Obscura
