import Verif.Lemmas.NuclearRange
import Verif.Props.Halo
import Mathlib.Probability.Distributions.Gaussian.Real

/-!
# Properties C39–C42, C46 (nuclear recoils) and C61: nuclear recoil experiments
-/

namespace Obscura

open Spec MeasureTheory DMParticle NuclearDetector

variable {U : Units} {I : Integrator} {nd : NuclearDetector} {d : Detector} {p : DMParticle} {h : Distribution}

/-! ## C39 — target composition -/

/-- C39 (stoichiometric ratios). Ratios that add up to more than one, or no ratios at all (all ones), give mass fractions
proportional to ratio times average nuclear mass; they are not negative and add up to one. -/
theorem C39_ratios (label : String) (expo : ℝ) {nuclei : List Nucleus} {abund : List ℝ} (hn : nuclei ≠ [])
    (ha : abund = [] ∨ (abund.length = nuclei.length ∧ 1 < abund.sum)) (h0 : ∀ a ∈ abund, 0 ≤ a)
    (hm : ∀ n ∈ nuclei, 0 < n.averageMass) :
    ∃ nd, NuclearDetector.make label expo nuclei abund = .ok (Detector.make label expo "Nuclei", nd) ∧
      nd.nuclei = nuclei ∧ nd.resolution = 0 ∧ nd.usingTables = false ∧ nd.fractions.length = nuclei.length ∧
      (∀ (i : ℕ) (hi : i < nuclei.length), nd.fractions.getD i 0 = abund.getD i 1 * nuclei[i].averageMass /
        ∑ j : Fin nuclei.length, abund.getD j 1 * nuclei[j].averageMass) ∧
      (∀ x ∈ nd.fractions, 0 ≤ x) ∧ nd.fractions.sum = 1 := by
  set w : ℕ → ℝ := fun i => if hi : i < nuclei.length then abund.getD i 1 * nuclei[i].averageMass else 0 with hw
  have hw' : ∀ (i : ℕ) (hi : i < nuclei.length), w i = abund.getD i 1 * nuclei[i].averageMass := fun i hi => by
    simp [hw, hi]
  have hanon : ∀ i, 0 ≤ abund.getD i 1 := fun i => by
    by_cases hi : i < abund.length
    · simpa [List.getD, hi] using h0 _ (List.getElem_mem hi)
    · simp [List.getD, not_lt.1 hi]
  have hwn : ∀ i, 0 ≤ w i := fun i => by
    simp only [hw]; split_ifs with hi
    · exact mul_nonneg (hanon i) (hm _ (List.getElem_mem hi)).le
    · exact le_rfl
  have hlen : 0 < nuclei.length := List.length_pos_iff.2 hn
  have hS : ((List.range nuclei.length).map w).sum = ∑ j : Fin nuclei.length, abund.getD j 1 * nuclei[j].averageMass := by
    rw [show ∀ (n : ℕ) (f : ℕ → ℝ), ((List.range n).map f).sum = ∑ i ∈ Finset.range n, f i from fun n f => rfl,
      Finset.sum_range]
    exact Finset.sum_congr rfl fun i _ => hw' i i.2
  have hSp : 0 < ((List.range nuclei.length).map w).sum := by
    rw [hS]
    have hex : ∃ i : Fin nuclei.length, 0 < abund.getD i 1 := by
      rcases ha with rfl | ⟨hl, hs⟩
      · exact ⟨⟨0, hlen⟩, by simp⟩
      · by_contra hc
        push Not at hc
        have : ∀ a ∈ abund, a = 0 := fun a ha => by
          obtain ⟨i, hi, rfl⟩ := List.getElem_of_mem ha
          have := hc ⟨i, hl ▸ hi⟩
          simp only [List.getD, List.getElem?_eq_getElem hi, Option.getD_some] at this
          exact le_antisymm this (h0 _ (List.getElem_mem hi))
        rw [List.sum_eq_zero this] at hs
        linarith
    obtain ⟨i, hi⟩ := hex
    exact Finset.sum_pos' (fun j _ => mul_nonneg (hanon j) (hm _ (List.getElem_mem j.2)).le)
      ⟨i, Finset.mem_univ _, mul_pos hi (hm _ (List.getElem_mem i.2))⟩
  have hms : massFractions nuclei abund =
      .ok (((List.range nuclei.length).map w).map fun m => m / ((List.range nuclei.length).map w).sum) := by
    unfold massFractions
    rw [if_pos (by
      rcases ha with h | ⟨_, h⟩
      · exact .inl h
      · exact .inr (by rwa [foldl_add_eq_sum]))]
    rw [collect_ok (g := w)]
    · simp only [Outcome.bind_ok, foldl_add_eq_sum]
      exact collect_ok fun m _ => fdiv_ok hSp.ne'
    · intro i hi
      have hi : i < nuclei.length := List.mem_range.1 hi
      rw [vecGet_lt hi]
      simp only [Outcome.bind_ok]
      rw [hw' i hi]
      rcases ha with rfl | ⟨hl, hs⟩
      · simp
      · have : abund ≠ [] := by rintro rfl; simp at hs; linarith
        rw [if_neg this, vecGet_lt (hl ▸ hi)]
        simp [List.getD, hl ▸ hi]
  refine ⟨⟨nuclei, ((List.range nuclei.length).map w).map fun m => m / ((List.range nuclei.length).map w).sum, 0, false, []⟩,
    by unfold NuclearDetector.make; rw [hms]; rfl, rfl, rfl, rfl, by simp, ?_, ?_, ?_⟩
  · intro i hi
    rw [← hS, ← hw' i hi]
    simp [List.getD, hi]
  · intro x hx
    obtain ⟨y, hy, rfl⟩ := List.mem_map.1 hx
    obtain ⟨i, _, rfl⟩ := List.mem_map.1 hy
    exact div_nonneg (hwn i) hSp.le
  · have : ∀ (l : List ℝ) (c : ℝ), (l.map fun m => m / c).sum = l.sum / c := fun l c => by
      induction l with
      | nil => simp
      | cons a l ih => simp [ih, add_div]
    simp only [this]
    exact div_self hSp.ne'

/-- C39 (given mass fractions). A non-empty list that adds up to at most one is used unchanged. -/
theorem C39_given_fractions (label : String) (expo : ℝ) (nuclei : List Nucleus) {abund : List ℝ} (hn : abund ≠ [])
    (hs : abund.sum ≤ 1) :
    ∃ nd, NuclearDetector.make label expo nuclei abund = .ok (Detector.make label expo "Nuclei", nd) ∧
      nd.nuclei = nuclei ∧ nd.fractions = abund ∧ nd.resolution = 0 ∧ nd.usingTables = false := by
  refine ⟨⟨nuclei, abund, 0, false, []⟩, ?_, rfl, rfl, rfl, rfl⟩
  have : massFractions nuclei abund = .ok abund := by
    unfold massFractions
    rw [if_neg (by rw [foldl_add_eq_sum]; push Not; exact ⟨hn, hs⟩)]
  simp [NuclearDetector.make, this]

/-- C39 (error case): with fewer ratios than targets the constructor reads out of bounds. -/
theorem C39_too_few_ratios (label : String) (expo : ℝ) {nuclei : List Nucleus} {abund : List ℝ} (hl : abund.length < nuclei.length)
    (hs : 1 < abund.sum) : NuclearDetector.make label expo nuclei abund = .ub := by
  have hc : ∀ (l : List ℕ) (f : ℕ → Outcome ℝ), (∃ i ∈ l, f i = .ub) → (∀ i ∈ l, f i = .ub ∨ ∃ x, f i = .ok x) → collect f l = .ub := by
    intro l f
    induction l with
    | nil => simp
    | cons a l ih =>
      rintro ⟨i, hi, hf⟩ hall
      rcases hall a (by simp) with h1 | ⟨x, h1⟩
      · simp [collect, h1]
      · rcases List.mem_cons.1 hi with rfl | hi
        · rw [hf] at h1; cases h1
        · simp [collect, h1, ih ⟨i, hi, hf⟩ fun j hj => hall j (by simp [hj])]
  have hne : abund ≠ [] := by rintro rfl; simp at hs; linarith
  unfold NuclearDetector.make massFractions
  rw [if_pos (.inr (by rwa [foldl_add_eq_sum])), hc]
  · rfl
  · refine ⟨abund.length, by simpa using hl, ?_⟩
    simp [vecGet_lt hl, hne, vecGet_ge]
  · intro i hi
    have hi : i < nuclei.length := List.mem_range.1 hi
    by_cases h1 : i < abund.length
    · right; simp [vecGet_lt hi, hne, vecGet_lt h1]
    · left; simp [vecGet_lt hi, hne, vecGet_ge (not_lt.1 h1)]

/-- C39 fails: stoichiometric ratios that happen to add up to at most one are taken for mass fractions. Equal amounts of two
elements given as `{0.5, 0.5}` get equal mass fractions although their masses differ (given as `{1, 1}` they do not). -/
theorem C39_fails {n₁ n₂ : Nucleus} (h1 : 0 < n₁.averageMass) (h2 : n₁.averageMass < n₂.averageMass) :
    (∃ nd, NuclearDetector.make "x" 1 [n₁, n₂] [1 / 2, 1 / 2] = .ok (Detector.make "x" 1 "Nuclei", nd) ∧
      nd.fractions.getD 0 0 = nd.fractions.getD 1 0) ∧
    (∃ nd, NuclearDetector.make "x" 1 [n₁, n₂] [1, 1] = .ok (Detector.make "x" 1 "Nuclei", nd) ∧
      nd.fractions.getD 0 0 < nd.fractions.getD 1 0) := by
  constructor
  · obtain ⟨nd, h, _, hf, _⟩ := C39_given_fractions "x" 1 [n₁, n₂] (abund := [1 / 2, 1 / 2]) (by simp) (by norm_num)
    exact ⟨nd, h, by simp [hf]⟩
  · obtain ⟨nd, h, _, _, _, _, hf, _⟩ := C39_ratios "x" 1 (nuclei := [n₁, n₂]) (abund := [1, 1]) (by simp)
      (.inr ⟨rfl, by norm_num⟩) (by simp) (by
        intro n hn
        simp only [List.mem_cons, List.not_mem_nil, or_false] at hn
        rcases hn with rfl | rfl
        · exact h1
        · exact h1.trans h2)
    refine ⟨nd, h, ?_⟩
    rw [hf 0 (by simp), hf 1 (by simp)]
    simp [Fin.sum_univ_two]
    have : 0 < n₁.averageMass + n₂.averageMass := by linarith
    gcongr

/-- C39 (error case): elements without natural isotopes have no average mass, and a detector made of them gets no finite mass
fractions (such elements are in the shipped table, see C60). -/
theorem C39_massless (label : String) (expo : ℝ) {n : Nucleus} (hm : n.averageMass = 0) :
    NuclearDetector.make label expo [n] [] = .nonfinite := by
  simp [NuclearDetector.make, massFractions, collect, vecGet, hm, fdiv, List.range_succ]

/-! ## C42 — both ways to compute a rate -/

/-- C42: with the eta function, or by integrating flux times cross section, `dR/dER` is the textbook recoil rate, provided the
distribution's `Eta_Function` is the integral of `f(u)/u` at the one speed at which it is evaluated. -/
theorem C42_rate (hI : I.Exact) {iso : Isotope} {E : ℝ} (hm : 0 < p.mass) (hM : 0 < iso.mass)
    (heta : p.useEtaFunction = true → h.useEta = true → vMinimalNucleus E p.mass iso.mass ≤ h.vMax →
      EtaAt h (vMinimalNucleus E p.mass iso.mass)) :
    dRdERIsotope U I E p h iso = .ok (isotopeRate U p h iso E) :=
  dRdERIsotope_eq hI hm hM heta

/-- C42: the two methods agree for a distribution whose `Eta_Function` is the integral of `f(u)/u`. -/
theorem C42_methods_agree (hI : I.Exact) {iso : Isotope} {E : ℝ} (hm : 0 < p.mass) (hM : 0 < iso.mass)
    (heta : ∀ v, 0 ≤ v → v ≤ h.vMax → EtaAt h v) :
    dRdERIsotope U I E { p with useEtaFunction := true } { h with useEta := true } iso =
      dRdERIsotope U I E p { h with useEta := false } iso := by
  have h0 : 0 ≤ vMinimalNucleus E p.mass iso.mass := Real.sqrt_nonneg _
  rw [dRdERIsotope_eq (p := { p with useEtaFunction := true }) (h := { h with useEta := true }) hI hm hM
      (fun _ _ hv => heta _ h0 hv),
    dRdERIsotope_eq (h := { h with useEta := false }) hI hm hM (by simp)]
  rfl

/-- C42 (standard halo): in every standard halo the rate computed through the eta function is the textbook one, except for recoil
energies that need more than `v_max - 1e-8 v0` (there `Eta_Function` returns 0, see C17). -/
theorem C42_standard_halo_partial (hI : I.Exact) {s : SHM} (hs : SHM.Reachable U s) (hp : s.Physical) (hoe : s.vObs ≤ s.vEsc)
    (ho : s.vObs = 0 ∨ 1e-8 * s.v0 ≤ s.vObs) {iso : Isotope} {E : ℝ} (hm : 0 < p.mass) (hM : 0 < iso.mass)
    (hE : vMinimalNucleus E p.mass iso.mass ≤ s.vMax - 1e-8 * s.v0 ∨ s.vMax < vMinimalNucleus E p.mass iso.mass) :
    dRdERIsotope U I E p (Distribution.ofSHM s) iso = .ok (isotopeRate U p (Distribution.ofSHM s) iso E) := by
  refine dRdERIsotope_eq hI hm hM fun _ _ hv => ?_
  rcases hE with hE | hE
  · unfold EtaAt
    simp only [Distribution.ofSHM, Outcome.ok.injEq]
    exact C17_eta_partial U s hs hp hoe ho _ (Real.sqrt_nonneg _) hE
  · exact absurd hv (not_le.2 hE)

/-- C42 fails for distributions imported from a file whose table does not start at speed zero: a recoil energy that can be caused by
particles slower than the first tabulated speed terminates the program instead of giving the rate. -/
theorem C42_fails_imported (P : Interpolator) (rho : ℝ) {xs ys : List ℝ} {a b : ℝ} (ha : xs.head? = some a)
    (hb : xs.getLast? = some b) (hab : a ≤ b) (hp : p.useEtaFunction = true) {iso : Isotope} {E : ℝ}
    (hv : vMinimalNucleus E p.mass iso.mass < a) :
    ∃ h, Distribution.imported I P true rho xs ys = .ok h ∧ dRdERIsotope U I E p h iso = .exit ∧
      ∃ h', Distribution.imported I P false rho xs ys = .ok h' ∧ ∃ r, dRdERIsotope U I E p h' iso = .ok r := by
  have hvb : ¬ b < vMinimalNucleus E p.mass iso.mass := not_lt.2 (hv.le.trans hab)
  have hi : ∀ b', Distribution.imported I P b' rho xs ys = .ok _ := fun b' => by simp only [Distribution.imported, ha, hb]; rfl
  refine ⟨_, hi true, ?_, _, hi false, ?_⟩
  · unfold dRdERIsotope
    simp [hvb, hp, Distribution.importedEta, hv]
  · unfold dRdERIsotope
    simp [hvb]

/-! ## C40 — the differential rate of a detector -/

/-- C40 (value). Without energy resolution `dRdE` is the sum over the targets of mass fraction times efficiency times textbook rate;
with a resolution `σ` it is the convolution of that with a Gaussian of width `σ` over recoil energies from
`max(E - 6σ, E_threshold - 3σ, 2σ)` to `E + 6σ`. -/
theorem C40_rate (hI : I.Exact) {E : ℝ} (hm : 0 < p.mass) (hM : ∀ iso ∈ nd.isotopes, 0 < iso.mass)
    (hf : nd.fractions.length = nd.nuclei.length)
    (heta : p.useEtaFunction = true → h.useEta = true → ∀ v, 0 ≤ v → v ≤ h.vMax → EtaAt h v) :
    (nd.resolution < 1 / 10 ^ 6 * U.eV → nd.dRdE U I d E p h = .ok (targetRate U nd d p h E E)) ∧
    (1 / 10 ^ 6 * U.eV ≤ nd.resolution → nd.dRdE U I d E p h =
      .ok (∫ ER in (max (max (E - 6 * nd.resolution) (d.energyThreshold - 3 * nd.resolution)) (2 * nd.resolution))..
          (E + 6 * nd.resolution),
        ProbabilityTheory.gaussianPDFReal ER (Real.toNNReal (nd.resolution ^ 2)) E * targetRate U nd d p h E ER)) := by
  have ht : ∀ ER, nd.theoryRate U I d E ER p h = .ok (targetRate U nd d p h E ER) := fun ER =>
    theoryRate_eq_of hf.ge fun iso hiso => dRdERIsotope_eq hI hm (hM iso hiso)
      fun h1 h2 h3 => heta h1 h2 _ (Real.sqrt_nonneg _) h3
  constructor
  · intro hr
    unfold NuclearDetector.dRdE
    rw [if_pos hr, ht]
  · intro hr
    unfold NuclearDetector.dRdE
    rw [if_neg (not_lt.2 hr)]
    dsimp only
    rw [hI]
    congr 1
    refine intervalIntegral.integral_congr fun ER _ => ?_
    have hr0 : 0 < nd.resolution := by have := U.eV_pos; exact lt_of_lt_of_le (by positivity) hr
    simp only [ht, Outcome.valueOr0]
    congr 1
    unfold pdfGauss ProbabilityTheory.gaussianPDFReal
    rw [Real.coe_toNNReal _ (by positivity), Real.sqrt_mul (x := 2 * Real.pi) (by positivity), Real.sqrt_sq hr0.le, one_div]
    congr 2
    field_simp

/-- C40 (non-negative). For a physical target, halo, particle and efficiencies the rate is not negative at energies above the
threshold. -/
theorem C40_nonneg (hI : I.Exact) {E : ℝ} (hm : 0 < p.mass) (hM : ∀ iso ∈ nd.isotopes, PhysicalIsotope iso)
    (hf : nd.fractions.length = nd.nuclei.length)
    (heta : p.useEtaFunction = true → h.useEta = true → ∀ v, 0 ≤ v → v ≤ h.vMax → EtaAt h v)
    (hfr : ∀ x ∈ nd.fractions, 0 ≤ x) (hdens : 0 ≤ h.density) (hpdf : ∀ v, 0 ≤ v → 0 ≤ h.pdfSpeed v)
    (hfd : 0 ≤ p.fractionalDensity) (heff : ∀ e ∈ nd.efficiencies, ∀ E, 0 ≤ e E) (hflat : 0 ≤ d.flatEfficiency)
    (hres : 0 ≤ nd.resolution) (hE : 0 ≤ E) (hthr : d.energyThreshold ≤ E + 9 * nd.resolution) :
    ∃ r, nd.dRdE U I d E p h = .ok r ∧ 0 ≤ r := by
  have hiso : ∀ iso ∈ nd.isotopes, ∀ ER, 0 ≤ isotopeRate U p h iso ER := fun iso hiso ER => by
    unfold isotopeRate
    have h1 := (hM iso hiso).1
    refine mul_nonneg (by positivity) (setIntegral_nonneg_of_ae_restrict ?_)
    refine (ae_restrict_iff' ?_).2 ?_
    · rw [reach_set hm h1]; exact measurableSet_Icc
    · filter_upwards with v hv
      refine mul_nonneg (mul_nonneg hv.1 (hpdf v hv.1)) ?_
      unfold dSigmadERNucleus
      have := (C09_dsigma_nonneg (U := U) (p := p) (q := Real.sqrt (2 * iso.mass * ER)) (v := v) (hM iso hiso).2.1).1
      positivity
  have heo : ∀ i, 0 ≤ efficiencyOf nd i E := fun i => by
    have : ∀ j, 0 ≤ nd.efficiencies.getD j (fun _ => 1) E := fun j => by
      by_cases hj : j < nd.efficiencies.length
      · simpa [List.getD, hj] using heff _ (List.getElem_mem hj) E
      · simp [List.getD, not_lt.1 hj]
    unfold efficiencyOf
    split_ifs
    · exact this 0
    · exact this i
    · exact zero_le_one
  have ht : ∀ ER, 0 ≤ targetRate U nd d p h E ER := fun ER => by
    unfold targetRate
    refine Finset.sum_nonneg fun i _ => mul_nonneg (mul_nonneg (mul_nonneg (heo i) hflat) (getD_nonneg hfr i)) ?_
    refine List.sum_nonneg fun x hx => ?_
    obtain ⟨iso, hi, rfl⟩ := List.mem_map.1 hx
    have hmem := mem_isotopes (nd := nd) (List.getElem_mem i.2) hi
    exact mul_nonneg (hM iso hmem).2.2 (hiso iso hmem ER)
  have hv := C40_rate (U := U) (d := d) (E := E) hI hm (fun iso hi => (hM iso hi).1) hf heta
  rcases lt_or_ge nd.resolution (1 / 10 ^ 6 * U.eV) with hr | hr
  · exact ⟨_, hv.1 hr, ht E⟩
  · refine ⟨_, hv.2 hr, intervalIntegral.integral_nonneg ?_ fun ER _ => ?_⟩
    · refine max_le (max_le ?_ ?_) ?_ <;> linarith
    · exact mul_nonneg (ProbabilityTheory.gaussianPDFReal_nonneg _ _ _) (ht ER)

/-- C40, C46 (DM fraction). The rate is proportional to the fraction of the DM made of this particle. -/
theorem C46_nuclear_fraction (hI : I.Homogeneous) (E f : ℝ) :
    nd.dRdE U I d E (p.setFractionalDensity f) h =
      nd.dRdE U I d E (p.setFractionalDensity 1) h >>= fun r => .ok (f * r) := by
  have h1 : ∀ ER iso, dRdERIsotope U I ER (p.setFractionalDensity f) h iso =
      (dRdERIsotope U I ER (p.setFractionalDensity 1) h iso).scale f := fun ER iso => by
    have hd : ∀ x v, (p.setFractionalDensity x).dSigmadERNucleus U ER iso v = p.dSigmadERNucleus U ER iso v := fun x v => rfl
    have hg : ∀ x, dRdERIsotope U I ER (p.setFractionalDensity x) h iso =
        if h.vMax < vMinimalNucleus ER p.mass iso.mass then .ok 0
        else if p.useEtaFunction ∧ h.useEta then h.eta (vMinimalNucleus ER p.mass iso.mass) >>= fun e =>
          .ok (1 / iso.mass * (h.density * x) / p.mass * (1 / 1000 * (1 / 1000) * p.dSigmadERNucleus U ER iso (1 / 1000)) * e)
        else .ok (x / iso.mass * I (fun v => h.differentialFlux v p.mass * p.dSigmadERNucleus U ER iso v)
          (vMinimalNucleus ER p.mass iso.mass) h.vMax) := fun x => by
      unfold dRdERIsotope
      simp only [hd]
      simp only [setFractionalDensity]
      congr
    rw [hg, hg]
    split_ifs
    · simp [Outcome.scale]
    · cases h.eta _ <;> simp [Outcome.scale]
      ring
    · simp only [Outcome.scale, Outcome.bind_ok, Outcome.ok.injEq]; ring
  have h2 : ∀ ER n, dRdERNucleus U I ER (p.setFractionalDensity f) h n =
      (dRdERNucleus U I ER (p.setFractionalDensity 1) h n).scale f := fun ER n => by
    refine sumOver_scale f fun iso _ => ?_
    rw [h1]
    cases dRdERIsotope U I ER (p.setFractionalDensity 1) h iso <;> simp [Outcome.scale]
    ring
  have h3 : ∀ ER, nd.theoryRate U I d E ER (p.setFractionalDensity f) h =
      (nd.theoryRate U I d E ER (p.setFractionalDensity 1) h).scale f := fun ER => by
    refine sumOver_scale f fun i _ => ?_
    cases vecGet nd.nuclei i <;> simp [Outcome.scale]
    rename_i n
    cases nd.efficiency i E <;> simp
    cases vecGet nd.fractions i <;> simp
    rw [h2]
    cases dRdERNucleus U I ER (p.setFractionalDensity 1) h n <;> simp [Outcome.scale]
    ring
  change _ = Outcome.scale f _
  unfold NuclearDetector.dRdE
  split_ifs
  · exact h3 E
  · simp only [Outcome.scale, Outcome.bind_ok, Outcome.ok.injEq]
    rw [← hI]
    congr 1
    funext ER
    rw [h3, Outcome.scale_valueOr0]; ring

/-- C40 (DM density). The rate is proportional to the local DM density. -/
theorem C40_density (hI : I.Homogeneous) (E ρ : ℝ) :
    nd.dRdE U I d E p { h with density := ρ } =
      nd.dRdE U I d E p { h with density := 1 } >>= fun r => .ok (ρ * r) := by
  have h1 : ∀ ER iso, dRdERIsotope U I ER p { h with density := ρ } iso =
      (dRdERIsotope U I ER p { h with density := 1 } iso).scale ρ := fun ER iso => by
    unfold dRdERIsotope
    simp only
    split_ifs
    · simp [Outcome.scale]
    · cases h.eta _ <;> simp [Outcome.scale]
      ring
    · simp only [Outcome.scale, Outcome.bind_ok, Outcome.ok.injEq]
      rw [mul_left_comm ρ, ← hI ρ]
      congr 2
      funext v
      simp only [Distribution.differentialFlux]; ring
  have h2 : ∀ ER n, dRdERNucleus U I ER p { h with density := ρ } n =
      (dRdERNucleus U I ER p { h with density := 1 } n).scale ρ := fun ER n => by
    refine sumOver_scale ρ fun iso _ => ?_
    rw [h1]
    cases dRdERIsotope U I ER p { h with density := 1 } iso <;> simp [Outcome.scale]
    ring
  have h3 : ∀ ER, nd.theoryRate U I d E ER p { h with density := ρ } =
      (nd.theoryRate U I d E ER p { h with density := 1 }).scale ρ := fun ER => by
    refine sumOver_scale ρ fun i _ => ?_
    cases vecGet nd.nuclei i <;> simp [Outcome.scale]
    rename_i n
    cases nd.efficiency i E <;> simp
    cases vecGet nd.fractions i <;> simp
    rw [h2]
    cases dRdERNucleus U I ER p { h with density := 1 } n <;> simp [Outcome.scale]
    ring
  change _ = Outcome.scale ρ _
  unfold NuclearDetector.dRdE
  split_ifs
  · exact h3 E
  · simp only [Outcome.scale, Outcome.bind_ok, Outcome.ok.injEq]
    rw [← hI]
    congr 1
    funext ER
    rw [h3, Outcome.scale_valueOr0]; ring

/-- C40 (cross section). Every signal a nuclear detector predicts is proportional to the cross section on nuclei: this is the
contract assumed of detector classes in C30–C32 and C34. -/
theorem C40_linear {T : Tools} (hI : T.integrate.Homogeneous)
    (hP : ∀ k xs (ys : List ℝ) x y, T.interpolationIntegral xs (ys.map fun z => k * z) x y = k * T.interpolationIntegral xs ys x y) :
    LinearClass U (nd.toClass U T h) "Nuclei" := by
  refine DetectorClass.base_linear hI hP ?_ ?_
  · intro d E k p p' _ _ hs
    rw [dRdE_scale hI hs, Outcome.scale_valueOr0]
  · intro d p u c s ss E
    rfl

/-- C40 (additive). The rate of a detector with two groups of targets (no efficiency tables, no energy resolution) is the sum of the
rates of the groups. -/
theorem C40_additive {n₁ n₂ : List Nucleus} {f₁ f₂ : List ℝ} (h₁ : f₁.length = n₁.length) {E res r₁ r₂ : ℝ}
    (hr : res < 1 / 10 ^ 6 * U.eV)
    (e₁ : (⟨n₁, f₁, res, false, []⟩ : NuclearDetector).dRdE U I d E p h = .ok r₁)
    (e₂ : (⟨n₂, f₂, res, false, []⟩ : NuclearDetector).dRdE U I d E p h = .ok r₂) :
    (⟨n₁ ++ n₂, f₁ ++ f₂, res, false, []⟩ : NuclearDetector).dRdE U I d E p h = .ok (r₁ + r₂) := by
  unfold NuclearDetector.dRdE at *
  rw [if_pos hr] at *
  unfold theoryRate at *
  rw [List.length_append, List.range_add, sumOver_append, sumOver_map,
    sumOver_congr (g := fun i => do
      let n ← vecGet n₁ i
      let eff ← (⟨n₁, f₁, res, false, []⟩ : NuclearDetector).efficiency i E
      let fr ← vecGet f₁ i
      let r ← dRdERNucleus U I E p h n
      .ok (eff * d.flatEfficiency * fr * r)) (l := List.range n₁.length),
    sumOver_congr (g := fun i => do
      let n ← vecGet n₂ i
      let eff ← (⟨n₂, f₂, res, false, []⟩ : NuclearDetector).efficiency i E
      let fr ← vecGet f₂ i
      let r ← dRdERNucleus U I E p h n
      .ok (eff * d.flatEfficiency * fr * r)) (l := List.range n₂.length)]
  · rw [e₁, e₂]; rfl
  · intro i hi
    have h1 : vecGet (n₁ ++ n₂) (n₁.length + i) = vecGet n₂ i := by
      unfold vecGet; rw [List.getElem?_append_right (by omega), Nat.add_sub_cancel_left]
    have h2 : vecGet (f₁ ++ f₂) (n₁.length + i) = vecGet f₂ i := by
      unfold vecGet; rw [List.getElem?_append_right (by omega), h₁, Nat.add_sub_cancel_left]
    simp only [Function.comp, h1, h2]
    rfl
  · intro i hi
    have hi : i < n₁.length := List.mem_range.1 hi
    have h1 : vecGet (n₁ ++ n₂) i = vecGet n₁ i := by
      unfold vecGet; rw [List.getElem?_append_left hi]
    have h2 : vecGet (f₁ ++ f₂) i = vecGet f₁ i := by
      unfold vecGet; rw [List.getElem?_append_left (h₁.symm ▸ hi)]
    simp only [h1, h2]
    rfl

end Obscura
