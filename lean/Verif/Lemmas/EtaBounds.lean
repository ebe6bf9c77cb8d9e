import Verif.Spec.EtaBounds
import Verif.Props.IonizationRates
import Verif.Props.Crystal
import Verif.Props.NuclearDetector

/-!
# Rates as monotone functions of eta
-/

namespace Obscura

open Spec MeasureTheory

variable {U : Units} {I : Integrator} {p : DMParticle} {h h' : Distribution} {e : AtomicElectron} {c : Crystal}

/-- Both are defined and ordered. -/
def OkLe (a b : Outcome ℝ) : Prop := ∃ r r', a = .ok r ∧ b = .ok r' ∧ r ≤ r'

theorem OkLe.refl (x : ℝ) : OkLe (.ok x) (.ok x) := ⟨x, x, rfl, rfl, le_rfl⟩

theorem OkLe.map {a b : Outcome ℝ} {f : ℝ → ℝ} (hf : Monotone f) (hab : OkLe a b) :
    OkLe (a >>= fun r => .ok (f r)) (b >>= fun r => .ok (f r)) := by
  obtain ⟨r, r', rfl, rfl, hle⟩ := hab
  exact ⟨_, _, rfl, rfl, hf hle⟩

theorem OkLe.sumOver {α : Type} {f g : α → Outcome ℝ} {l : List α} (hfg : ∀ y ∈ l, OkLe (f y) (g y)) :
    OkLe (sumOver f l) (sumOver g l) := by
  have : ∀ y, ∃ r r', y ∈ l → f y = .ok r ∧ g y = .ok r' ∧ r ≤ r' := fun y => by
    by_cases hy : y ∈ l
    · obtain ⟨r, r', h⟩ := hfg y hy; exact ⟨r, r', fun _ => h⟩
    · exact ⟨0, 0, fun h => absurd h hy⟩
  choose r r' hr using this
  refine ⟨_, _, sumOver_ok fun y hy => (hr y hy).1, sumOver_ok fun y hy => (hr y hy).2.1, ?_⟩
  exact List.sum_le_sum fun y hy => (hr y hy).2.2

/-- Two halos that differ in their eta functions, which are defined and ordered. -/
structure EtaLe (h h' : Distribution) : Prop where
  density : h'.density = h.density
  vMax : h'.vMax = h.vMax
  use : h.useEta = true
  use' : h'.useEta = true
  eta : ∀ v, 0 ≤ v → v ≤ h.vMax → OkLe (h.eta v) (h'.eta v)

theorem dRdERIsotope_mono (hle : EtaLe h h') (hp : p.useEtaFunction = true) {iso : Isotope} {E : ℝ} (hm : 0 < p.mass)
    (hM : 0 < iso.mass) (hs : 0 ≤ iso.spin) (hdens : 0 ≤ h.density) (hfd : 0 ≤ p.fractionalDensity) :
    OkLe (dRdERIsotope U I E p h iso) (dRdERIsotope U I E p h' iso) := by
  unfold dRdERIsotope
  dsimp only
  rw [hle.vMax, hle.density, hle.use, hle.use', hp]
  split_ifs with h1 h2
  · exact .refl _
  · refine OkLe.map (f := fun x => 1 / iso.mass * (h.density * p.fractionalDensity) / p.mass *
      (1 / 1000 * (1 / 1000) * p.dSigmadERNucleus U E iso (1 / 1000)) * x) (fun x y hxy => ?_)
      (hle.eta _ (Real.sqrt_nonneg _) (not_lt.1 h1))
    refine mul_le_mul_of_nonneg_left hxy ?_
    have : 0 ≤ p.dSigmadERNucleus U E iso (1 / 1000) := by
      unfold DMParticle.dSigmadERNucleus
      have := (C09_dsigma_nonneg (U := U) (p := p) (q := Real.sqrt (2 * iso.mass * E)) (v := 1 / 1000) hs).1
      positivity
    positivity
  · simp at h2

theorem dRdEeCrystal_mono (hle : EtaLe h h') (hp : p.useEtaFunction = true) (hf : CrystalFacts U c) (hm : 0 < p.mass) {E : ℝ} (hE : 0 ≤ E)
    (hdens : 0 ≤ h.density) (hcs : ∀ q v, 0 ≤ p.d2SigmaCrystal U q E v c) :
    OkLe (dRdEeCrystal U I E p h c) (dRdEeCrystal U I E p h' c) := by
  have hdq := hf.dq_pos
  have hM := hf.mCell_pos
  unfold dRdEeCrystal
  split_ifs with h1
  · exact .refl _
  · refine OkLe.map (f := fun x => 1 / c.mCell * x) (fun x y hxy => mul_le_mul_of_nonneg_left hxy (by positivity)) ?_
    refine OkLe.sumOver fun i _ => ?_
    unfold dRdEeCrystalTerm
    dsimp only
    rw [hle.vMax, hle.density, hle.use, hle.use', hp]
    split_ifs with h2 h3
    · exact .refl _
    · have hv : 0 ≤ vMinimalElectrons (((i : ℝ) + 1) * c.dq) E p.mass := by unfold vMinimalElectrons; positivity
      refine OkLe.map (f := fun x => 2 * (((i : ℝ) + 1) * c.dq) * c.dq * h.density / p.mass * x * (1 / 1000) * (1 / 1000) *
        p.d2SigmaCrystal U (((i : ℝ) + 1) * c.dq) E (1 / 1000) c) (fun x y hxy => ?_) (hle.eta _ hv (not_lt.1 h2))
      have := hcs (((i : ℝ) + 1) * c.dq) (1 / 1000)
      dsimp only
      gcongr
    · simp at h3

theorem dRdEeER_mono (hle : EtaLe h h') (hp : p.useEtaFunction = true) (hm : 0 < p.mass) (hv : 0 < h.vMax) (hB : 0 < e.binding) {M E : ℝ}
    (hM : 0 < M) (hE : 0 < E) (hdens : 0 ≤ h.density) (hcs : ∀ q v, 0 ≤ p.d2SigmaIonization U q E v e) :
    OkLe (dRdEeER U I E p h M e) (dRdEeER U I E p h' M e) := by
  by_cases ho : energeticallyClosed p.mass h.vMax e.binding
  · unfold dRdEeER
    dsimp only
    rw [hle.vMax, if_pos ho, if_pos ho]
    exact .refl _
  have hset : {q | CanTransfer p.mass h.vMax q e.binding} = Set.Icc (qMinER p.mass h.vMax e.binding) (qMaxER p.mass h.vMax e.binding) := by
    ext q; exact reachable_momenta hm hv hB ho q
  have hmm : qMinER p.mass h.vMax e.binding ≤ qMaxER p.mass h.vMax e.binding := by
    unfold qMinER qMaxER
    have := Real.sqrt_nonneg (p.mass * p.mass * h.vMax * h.vMax - 2 * p.mass * e.binding)
    linarith
  obtain ⟨_, _, _, hlo0, _⟩ := qMinER_eq hm hv hB (by rw [hset]; exact isLeast_Icc hmm) (by rw [hset]; exact isGreatest_Icc hmm)
  unfold dRdEeER
  dsimp only
  rw [hle.vMax, if_neg ho, if_neg ho]
  by_cases htab : e.qMax < qMinER p.mass h.vMax e.binding
  · rw [if_pos htab, if_pos htab]
    exact .refl _
  rw [if_neg htab, if_neg htab, if_neg (not_le.2 hlo0), if_neg (not_le.2 hlo0)]
  generalize htop : (if e.qMax < qMaxER p.mass h.vMax e.binding then e.qMax else qMaxER p.mass h.vMax e.binding) = top
  have hle1 : qMinER p.mass h.vMax e.binding ≤ top := by
    rw [← htop]; split_ifs
    · exact not_lt.1 htab
    · exact hmm
  have htop0 := hlo0.trans_le hle1
  rw [logSpace_get (by norm_num), logSpace_get (by norm_num)]
  simp only [Outcome.bind_ok]
  rw [log_step hlo0 htop0]
  have hdl : 0 ≤ Real.log (top / qMinER p.mass h.vMax e.binding) / (((100 : ℕ) : ℝ) - 1) :=
    div_nonneg (Real.log_nonneg ((one_le_div hlo0).2 hle1)) (by norm_num)
  generalize Real.log (top / qMinER p.mass h.vMax e.binding) / (((100 : ℕ) : ℝ) - 1) = dl at hdl ⊢
  refine OkLe.map (f := fun x => 1 / M * x) (fun x y hxy => mul_le_mul_of_nonneg_left hxy (by positivity)) ?_
  refine OkLe.sumOver fun q hq => ?_
  have hq0 : 0 < q := logSpace_pos hlo0 htop0 hq
  unfold dRdEeERTerm
  dsimp only
  rw [hle.vMax, hle.density, hle.use, hle.use', hp]
  split_ifs with h2 h3
  · have hv0 : 0 ≤ vMinimalElectrons q (e.binding + E) p.mass := by unfold vMinimalElectrons; positivity
    refine OkLe.map (f := fun x => 2 * dl * q * q *
      p.d2SigmaIonization U q E (1 / 1000) e * (1 / 1000) * (1 / 1000) * h.density / p.mass * x) (fun x y hxy => ?_)
      (hle.eta _ hv0 h2.le)
    have := hcs q (1 / 1000)
    refine mul_le_mul_of_nonneg_left hxy ?_
    positivity
  · simp at h3
  · exact .refl _

/-- The integrand over recoil energies in terms of the value of eta. -/
theorem migdalIntegrand_value (hp : p.useEtaFunction = true) (hh : h.useEta = true) {iso : Isotope} {ER E : ℝ} (hER : 0 < ER) :
    migdalIntegrand U I E p h iso e ER =
      if h.vMax ≤ vMinimalMigdal ER E p.mass iso.mass e.binding then 0 else
        h.density / p.mass * (h.eta (vMinimalMigdal ER E p.mass iso.mass e.binding)).valueOr0 *
          p.d2SigmaMigdal U ER E (1 / 1000) iso e * (1 / 1000) * (1 / 1000) := by
  unfold migdalIntegrand
  dsimp only
  rw [if_pos hER, hp, hh]
  simp

/-- The eta function is defined, not negative and never increases. -/
structure EtaRegular (h : Distribution) (x : ℝ → ℝ) : Prop where
  eta : ∀ v, 0 ≤ v → v ≤ h.vMax → h.eta v = .ok (x v)
  nonneg : ∀ v, 0 ≤ v → v ≤ h.vMax → 0 ≤ x v
  antitone : ∀ v w, 0 ≤ v → v ≤ w → w ≤ h.vMax → x w ≤ x v

theorem vMinimalMigdal_pos {ER E m M B : ℝ} (hm : 0 < m) (hM : 0 < M) (hER : 0 < ER) (hE : 0 < B + E) : 0 < vMinimalMigdal ER E m M B := by
  rw [vMinimalMigdal_eq hm hM hER]
  unfold vMinimalElectrons
  have : 0 < Real.sqrt (2 * M * ER) := Real.sqrt_pos.2 (by positivity)
  positivity

theorem migdalIntegrand_integrable (hp : p.useEtaFunction = true) (hh : h.useEta = true) (hm : 0 < p.mass) {iso : Isotope} {E : ℝ}
    (hM : 0 < iso.mass) (hv : 0 < h.vMax) (hB : 0 < e.binding) (hE : 0 < E) {x : ℝ → ℝ} (hx : EtaRegular h x) {a b : ℝ} (ha : 0 < a)
    (hσ : IntegrableOn (fun ER => p.d2SigmaMigdal U ER E (1 / 1000) iso e) (Set.Icc a b)) :
    IntegrableOn (migdalIntegrand U I E p h iso e) (Set.Icc a b) := by
  set vm : ℝ → ℝ := fun ER => vMinimalMigdal ER E p.mass iso.mass e.binding with hvm
  have hmeas : Measurable vm := by
    rw [hvm]; unfold vMinimalMigdal; fun_prop
  set y : ℝ → ℝ := fun v => x (max 0 (min v h.vMax)) with hy
  have hclamp : ∀ v, 0 ≤ max 0 (min v h.vMax) ∧ max 0 (min v h.vMax) ≤ h.vMax := fun v =>
    ⟨le_max_left _ _, max_le hv.le (min_le_right _ _)⟩
  have hanti : Antitone y := fun v w hvw =>
    hx.antitone _ _ (hclamp v).1 (max_le_max le_rfl (min_le_min hvw le_rfl)) (hclamp w).2
  have hy0 : ∀ v, 0 ≤ y v := fun v => hx.nonneg _ (hclamp v).1 (hclamp v).2
  have hy1 : ∀ v, y v ≤ x 0 := fun v => hx.antitone _ _ le_rfl (hclamp v).1 (hclamp v).2
  set B : ℝ → ℝ := fun ER => (Set.Iio h.vMax).indicator y (vm ER) with hBdef
  have hBm : Measurable B := (hanti.measurable.indicator measurableSet_Iio).comp hmeas
  have hBb : ∀ ER, ‖B ER‖ ≤ x 0 := fun ER => by
    rw [hBdef]
    dsimp only
    unfold Set.indicator
    split_ifs
    · rw [Real.norm_of_nonneg (hy0 _)]; exact hy1 _
    · rw [norm_zero]; exact (hy0 0).trans (hy1 0)
  have key : IntegrableOn (fun ER => h.density / p.mass * (1 / 1000) * (1 / 1000) *
      (B ER * p.d2SigmaMigdal U ER E (1 / 1000) iso e)) (Set.Icc a b) :=
    (Integrable.bdd_mul hσ hBm.aestronglyMeasurable (Filter.Eventually.of_forall hBb)).const_mul _
  refine key.congr_fun (fun ER hER => ?_) measurableSet_Icc
  have hER : 0 < ER := ha.trans_le hER.1
  have hvp : 0 < vm ER := vMinimalMigdal_pos hm hM hER (by linarith)
  rw [migdalIntegrand_value hp hh hER]
  change h.density / p.mass * (1 / 1000) * (1 / 1000) * ((Set.Iio h.vMax).indicator y (vm ER) * _) =
    if h.vMax ≤ vm ER then 0 else h.density / p.mass * (h.eta (vm ER)).valueOr0 * _ * (1 / 1000) * (1 / 1000)
  unfold Set.indicator
  split_ifs with h1 h2 h2
  · exact absurd h1 (not_lt.2 h2)
  · have h1 : vm ER < h.vMax := h1
    rw [hx.eta _ hvp.le h1.le]
    have : y (vm ER) = x (vm ER) := by
      rw [hy]; dsimp only
      rw [min_eq_left h1.le, max_eq_right hvp.le]
    rw [this]
    simp only [Outcome.valueOr0]
    ring
  · ring
  · exact absurd (not_le.1 h2) h1

theorem migdalIntegrand_zero (hp : p.useEtaFunction = true) (hh : h.useEta = true) (hm : 0 < p.mass) {iso : Isotope} {E ER : ℝ}
    (hM : 0 < iso.mass) (hv : 0 < h.vMax) (hB : 0 < e.binding) (hE : 0 < E) (hER : 0 < ER)
    (hout : ER < erMinMigdal h.vMax iso.mass e.binding ∨ erMaxMigdal h.vMax p.mass iso.mass < ER) :
    migdalIntegrand U I E p h iso e ER = 0 := by
  rw [migdalIntegrand_value hp hh hER, if_pos (C14_range_complete hm hM hER hE.le hB.le hv hout)]

theorem migdal_range_pos {iso : Isotope} (hM : 0 < iso.mass) (hv : 0 < h.vMax) (hB : 0 < e.binding) (hm : 0 < p.mass) :
    0 < erMinMigdal h.vMax iso.mass e.binding ∧ 0 < erMaxMigdal h.vMax p.mass iso.mass := by
  have := reducedMass_pos hm hM
  constructor
  · unfold erMinMigdal; positivity
  · unfold erMaxMigdal; positivity

/-- If the integrands are ordered, so are the rates. -/
theorem dRdEeMigdalIsotope_mono (hI : I.Exact) (hle : EtaLe h h') (hp : p.useEtaFunction = true) (hm : 0 < p.mass) {iso : Isotope} {E : ℝ}
    (hM : 0 < iso.mass) (hv : 0 < h.vMax) (hB : 0 < e.binding) (hE : 0 < E) (hdens : 0 ≤ h.density)
    (hcs : ∀ ER, 0 ≤ p.d2SigmaMigdal U ER E (1 / 1000) iso e) {x x' : ℝ → ℝ} (hx : EtaRegular h x) (hx' : EtaRegular h' x')
    (hσ : IntegrableOn (fun ER => p.d2SigmaMigdal U ER E (1 / 1000) iso e)
      (Set.Icc (erMinMigdal h.vMax iso.mass e.binding) (erMaxMigdal h.vMax p.mass iso.mass))) :
    dRdEeMigdalIsotope U I E p h iso e ≤ dRdEeMigdalIsotope U I E p h' iso e := by
  unfold dRdEeMigdalIsotope
  rw [hle.vMax, hI, hI]
  refine mul_le_mul_of_nonneg_left ?_ (by positivity)
  obtain ⟨hlo, hhi⟩ := migdal_range_pos (h := h) (e := e) (p := p) hM hv hB hm
  have hv' : 0 < h'.vMax := by rw [hle.vMax]; exact hv
  rcases le_or_gt (erMinMigdal h.vMax iso.mass e.binding) (erMaxMigdal h.vMax p.mass iso.mass) with hr | hr
  · refine intervalIntegral.integral_mono_on hr ?_ ?_ fun ER hER => ?_
    · rw [intervalIntegrable_iff_integrableOn_Icc_of_le hr]
      exact migdalIntegrand_integrable hp hle.use hm hM hv hB hE hx hlo hσ
    · rw [intervalIntegrable_iff_integrableOn_Icc_of_le hr]
      exact migdalIntegrand_integrable hp hle.use' hm hM hv' hB hE hx' hlo hσ
    · have hER : 0 < ER := hlo.trans_le hER.1
      rw [migdalIntegrand_value hp hle.use hER, migdalIntegrand_value hp hle.use' hER, hle.vMax, hle.density]
      split_ifs with h1
      · exact le_rfl
      · obtain ⟨r, r', e1, e2, h2⟩ := hle.eta _ (vMinimalMigdal_pos hm hM hER (by linarith)).le (not_le.1 h1).le
        have := hcs ER
        rw [e1, e2]
        simp only [Outcome.valueOr0]
        gcongr
  · have hz : ∀ {k : Distribution}, k.useEta = true → k.vMax = h.vMax →
        ∀ ER ∈ Set.uIcc (erMinMigdal h.vMax iso.mass e.binding) (erMaxMigdal h.vMax p.mass iso.mass),
          migdalIntegrand U I E p k iso e ER = 0 := by
      intro k hk hkv ER hER
      rw [Set.uIcc_of_ge hr.le] at hER
      refine migdalIntegrand_zero hp hk hm hM (by rw [hkv]; exact hv) hB hE (hhi.trans_le hER.1) ?_
      rw [hkv]
      rcases hER.2.lt_or_eq with h1 | h1
      · exact .inl h1
      · exact .inr (by rw [h1]; exact hr)
    rw [intervalIntegral.integral_congr fun ER hER => hz hle.use rfl ER hER,
      intervalIntegral.integral_congr fun ER hER => hz hle.use' hle.vMax ER hER]

/-- Without any condition of integrability the rate is not negative. -/
theorem dRdEeMigdalIsotope_nonneg (hI : I.Exact) (hp : p.useEtaFunction = true) (hh : h.useEta = true) (hm : 0 < p.mass) {iso : Isotope}
    {E : ℝ} (hM : 0 < iso.mass) (hv : 0 < h.vMax) (hB : 0 < e.binding) (hE : 0 < E) (hdens : 0 ≤ h.density)
    (hcs : ∀ ER, 0 ≤ p.d2SigmaMigdal U ER E (1 / 1000) iso e) (hη : ∀ v, 0 ≤ v → v ≤ h.vMax → EtaNonneg h v) :
    0 ≤ dRdEeMigdalIsotope U I E p h iso e := by
  unfold dRdEeMigdalIsotope
  rw [hI]
  refine mul_nonneg (by positivity) ?_
  obtain ⟨hlo, hhi⟩ := migdal_range_pos (h := h) (e := e) (p := p) hM hv hB hm
  rcases le_or_gt (erMinMigdal h.vMax iso.mass e.binding) (erMaxMigdal h.vMax p.mass iso.mass) with hr | hr
  · refine intervalIntegral.integral_nonneg hr fun ER hER => ?_
    have hER : 0 < ER := hlo.trans_le hER.1
    rw [migdalIntegrand_value hp hh hER]
    split_ifs with h1
    · exact le_rfl
    · obtain ⟨r, e1, h2⟩ := hη _ (vMinimalMigdal_pos hm hM hER (by linarith)).le (not_le.1 h1).le
      have := hcs ER
      rw [e1]
      simp only [Outcome.valueOr0]
      positivity
  · rw [intervalIntegral.integral_congr (g := fun _ => 0)]
    · simp
    · intro ER hER
      rw [Set.uIcc_of_ge hr.le] at hER
      refine migdalIntegrand_zero hp hh hm hM hv hB hE (hhi.trans_le hER.1) ?_
      rcases hER.2.lt_or_eq with h1 | h1
      · exact .inl h1
      · exact .inr (by rw [h1]; exact hr)

end Obscura
