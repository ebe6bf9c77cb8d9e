import Verif.Spec.HaloComparison
import Verif.Props.MassesMigdal
import Verif.Lemmas.Continuity

/-!
# Lemmas for C117: rates in two halos
-/

namespace Obscura

open Spec NuclearDetector DMParticle MeasureTheory

variable {U : Units} {I : Integrator} {T : Tools} {p : DMParticle} {h h' : Distribution} {k : ℝ} {iso : Isotope} {c : Crystal} {E : ℝ}

/-- Mean inverse speeds of the particles faster than `w`. -/
theorem AtMost.tail (A : AtMost k h h') (hk : 0 ≤ k) (hh : Orderly h) (hh' : Orderly h') {w : ℝ} (hw : 0 < w) (hwv : w ≤ h.vMax) :
    0 ≤ (∫ u in w..h.vMax, h.pdfSpeed u / u) ∧ 0 ≤ (∫ u in w..h'.vMax, h'.pdfSpeed u / u) ∧
      h.density * (∫ u in w..h.vMax, h.pdfSpeed u / u) ≤ k * (h'.density * ∫ u in w..h'.vMax, h'.pdfSpeed u / u) := by
  have hwv' := hwv.trans A.fastest
  have hint : ∀ g : Distribution, Orderly g → w ≤ g.vMax → IntervalIntegrable (fun v => g.pdfSpeed v / v) volume w g.vMax := fun g hg hv => by
    refine (hg.speeds.2.mono_set ?_).mul_continuousOn (g := fun v => v⁻¹) ?_
    · rw [Set.uIcc_of_le hv, Set.uIcc_of_le (hw.le.trans hv)]
      exact Set.Icc_subset_Icc hw.le le_rfl
    · rw [Set.uIcc_of_le hv]
      exact continuousOn_inv₀.mono fun v hv => (hw.trans_le hv.1).ne'
  have hnn : ∀ g : Distribution, Orderly g → ∀ v, w ≤ v → 0 ≤ g.pdfSpeed v / v := fun g hg v hv =>
    div_nonneg (hg.speeds.1 v (hw.le.trans hv)) (hw.le.trans hv)
  have i1 := hint h hh hwv
  have i2 := hint h' hh' hwv'
  have i3 : IntervalIntegrable (fun v => h'.pdfSpeed v / v) volume w h.vMax := i2.mono_set (by
    rw [Set.uIcc_of_le hwv, Set.uIcc_of_le hwv']
    exact Set.Icc_subset_Icc le_rfl A.fastest)
  have i4 : IntervalIntegrable (fun v => h'.pdfSpeed v / v) volume h.vMax h'.vMax := i2.mono_set (by
    rw [Set.uIcc_of_le A.fastest, Set.uIcc_of_le hwv']
    exact Set.Icc_subset_Icc hwv le_rfl)
  refine ⟨intervalIntegral.integral_nonneg hwv fun v hv => hnn h hh v hv.1, intervalIntegral.integral_nonneg hwv' fun v hv => hnn h' hh' v hv.1, ?_⟩
  have l1 : h.density * (∫ u in w..h.vMax, h.pdfSpeed u / u) ≤ k * (h'.density * ∫ u in w..h.vMax, h'.pdfSpeed u / u) := by
    rw [← intervalIntegral.integral_const_mul, ← intervalIntegral.integral_const_mul, ← intervalIntegral.integral_const_mul]
    refine intervalIntegral.integral_mono_on hwv (i1.const_mul _) ((i3.const_mul _).const_mul _) fun v hv => ?_
    have v0 := hw.trans_le hv.1
    have := div_le_div_of_nonneg_right (A.speeds v v0.le hv.2) v0.le
    calc h.density * (h.pdfSpeed v / v) = h.density * h.pdfSpeed v / v := by ring
      _ ≤ k * (h'.density * h'.pdfSpeed v) / v := this
      _ = _ := by ring
  have l2 := intervalIntegral.integral_add_adjacent_intervals i3 i4
  have l3 : 0 ≤ ∫ u in h.vMax..h'.vMax, h'.pdfSpeed u / u := intervalIntegral.integral_nonneg A.fastest fun v hv => hnn h' hh' v (hwv.trans hv.1)
  have := hh'.density
  refine l1.trans ?_
  gcongr
  linarith

/-- One term of a rate, for cross sections that fall with the square of the speed. -/
theorem AtMost.term (A : AtMost k h h') (hI : I.Exact) (hk : 0 ≤ k) (hh : Orderly h) (hh' : Orderly h') {w C m s : ℝ} {b : Bool} (hw : 0 < w) (hC : 0 ≤ C)
    (hm : 0 < m) (hs : 0 ≤ s) {σ : ℝ → ℝ} (hσ : ∀ v, σ v = s / v ^ 2) {R : Distribution → Outcome ℝ}
    (R0 : ∀ g ∈ [h, h'], g.vMax < w → R g = .ok 0)
    (R1 : ∀ g ∈ [h, h'], w ≤ g.vMax → (b ∧ g.useEta) → R g = (g.eta w >>= fun e => .ok (C * (s * (g.density / m * e)))))
    (R2 : ∀ g ∈ [h, h'], w ≤ g.vMax → ¬ (b ∧ g.useEta) → R g = .ok (C * I (fun v => g.differentialFlux v m * σ v) w g.vMax)) :
    OkScaled 1 k (R h) (R h') := by
  have m1 : h ∈ [h, h'] := by simp
  have m2 : h' ∈ [h, h'] := by simp
  have d0 := hh.density
  have d1 := hh'.density
  have key : ∀ g : Distribution, w ≤ g.vMax → ∫ v in w..g.vMax, g.differentialFlux v m * σ v =
      s * (g.density / m * ∫ v in w..g.vMax, g.pdfSpeed v / v) := fun g hg => by
    rw [← intervalIntegral.integral_const_mul, ← intervalIntegral.integral_const_mul]
    refine intervalIntegral.integral_congr fun v hv => ?_
    rw [Set.uIcc_of_le hg] at hv
    have : 0 < v := hw.trans_le hv.1
    simp only [Distribution.differentialFlux, hσ]
    field_simp
  have fin : ∀ x y : ℝ, h.density * x ≤ k * (h'.density * y) → 1 * (C * (s * (h.density / m * x))) ≤ k * (C * (s * (h'.density / m * y))) := fun x y hxy => by
    have : C * s / m * (h.density * x) ≤ C * s / m * (k * (h'.density * y)) := mul_le_mul_of_nonneg_left hxy (by positivity)
    calc 1 * (C * (s * (h.density / m * x))) = C * s / m * (h.density * x) := by ring
      _ ≤ _ := this
      _ = _ := by ring
  rcases lt_or_ge h'.vMax w with g' | g'
  · rw [R0 h' m2 g', R0 h m1 (A.fastest.trans_lt g')]
    exact .zero _ _
  by_cases u : b ∧ h'.useEta
  · rw [R1 h' m2 g' u]
    rcases lt_or_ge h.vMax w with g | g
    · obtain ⟨x, y, -, e, y0, yx⟩ := hh'.inverse w w hw.le le_rfl g'
      rw [R0 h m1 g, e]
      exact ⟨0, _, rfl, rfl, le_rfl, by positivity, by rw [mul_zero]; positivity⟩
    · obtain ⟨x, y, e1, e2, hle⟩ := A.inverse w hw.le g
      obtain ⟨-, x', -, f1, x0, -⟩ := hh.inverse w w hw.le le_rfl g
      obtain ⟨-, y', -, f2, y0, -⟩ := hh'.inverse w w hw.le le_rfl g'
      rw [e1] at f1
      rw [e2] at f2
      cases f1
      cases f2
      rw [R1 h m1 g ⟨u.1, by rw [A.method]; exact u.2⟩, e1, e2]
      exact ⟨_, _, rfl, rfl, by positivity, by positivity, fin _ _ hle⟩
  · rw [R2 h' m2 g' u, hI, key h' g']
    rcases lt_or_ge h.vMax w with g | g
    · have i0 : 0 ≤ ∫ v in w..h'.vMax, h'.pdfSpeed v / v := intervalIntegral.integral_nonneg g' fun v hv =>
        div_nonneg (hh'.speeds.1 v (hw.le.trans hv.1)) (hw.le.trans hv.1)
      rw [R0 h m1 g]
      exact ⟨0, _, rfl, rfl, le_rfl, by positivity, by rw [mul_zero]; positivity⟩
    · obtain ⟨i0, i1, hle⟩ := AtMost.tail A hk hh hh' hw g
      rw [R2 h m1 g (fun hc => u ⟨hc.1, by rw [← A.method]; exact hc.2⟩), hI, key h g]
      exact ⟨_, _, rfl, rfl, by positivity, by positivity, fin _ _ hle⟩

theorem dRdERIsotope_halos (A : AtMost k h h') (hI : I.Exact) (hk : 0 ≤ k) (hh : Orderly h) (hh' : Orderly h') (hi : PhysicalIsotope iso) (hm : 0 < p.mass)
    (hfd : 0 ≤ p.fractionalDensity) (hE : 0 < E) : OkScaled 1 k (dRdERIsotope U I E p h iso) (dRdERIsotope U I E p h' iso) := by
  have hM := hi.1
  obtain ⟨s, hs, c1⟩ := crossSection_speed (U := U) hM.le hi.2.1 p E
  refine AtMost.term A hI hk hh hh' (w := vMinimalNucleus E p.mass iso.mass) (C := p.fractionalDensity / iso.mass) (b := p.useEtaFunction)
    (R := fun g => dRdERIsotope U I E p g iso) (vMinimalNucleus_pos hE hm hM) (by positivity) hm hs c1 (fun g _ hg => ?_) (fun g _ hg u => ?_) (fun g _ hg u => ?_) <;>
    unfold dRdERIsotope <;> dsimp only
  · rw [if_pos hg]
  · rw [if_neg (not_lt.2 hg), if_pos u]
    congr 1
    funext e
    rw [c1]
    congr 1
    ring
  · rw [if_neg (not_lt.2 hg), if_neg u]

theorem dRdEeCrystal_halos (A : AtMost k h h') (hI : I.Exact) (hk : 0 ≤ k) (hh : Orderly h) (hh' : Orderly h') (hc : BuiltCrystal U c)
    (hcf : ∀ q, 0 ≤ c.formFactor q E) (hr : 0 ≤ p.sigmaElectronRef) (hm : 0 < p.mass) (hE : 0 < E) :
    OkScaled 1 k (dRdEeCrystal U I E p h c) (dRdEeCrystal U I E p h' c) := by
  have hfacts := CrystalFacts.of_built hc
  have hdq := hfacts.dq_pos
  have hM := hfacts.mCell_pos
  have hμ := reducedMass_pos hm U.mElectron_pos
  unfold dRdEeCrystal
  split_ifs with hmax
  · exact .zero _ _
  refine OkScaled.times (by positivity) (OkScaled.sumOver fun i _ => ?_)
  have hq : 0 < ((i : ℝ) + 1) * c.dq := by positivity
  obtain ⟨s, hs, hx⟩ := d2SigmaCrystal_eq (U := U) (E := E) (c := c) hr hq (hcf _)
  have c1 := hx p rfl rfl
  have hv0 : 0 < vMinimalElectrons (((i : ℝ) + 1) * c.dq) E p.mass := by unfold vMinimalElectrons; positivity
  refine AtMost.term A hI hk hh hh' (C := 2 * (((i : ℝ) + 1) * c.dq) * c.dq) (b := p.useEtaFunction)
    (R := fun g => dRdEeCrystalTerm U I E p g c i) hv0 (by positivity) hm (s := s / reducedMass p.mass U.mElectron ^ 2) (by positivity) c1
    (fun g _ hg => ?_) (fun g _ hg u => ?_) (fun g _ hg u => ?_) <;>
    unfold dRdEeCrystalTerm <;> dsimp only
  · rw [if_pos hg]
  · rw [if_neg (not_lt.2 hg), if_pos u]
    congr 1
    funext e
    rw [c1]
    congr 1
    ring
  · rw [if_neg (not_lt.2 hg), if_neg u]

theorem dRdEeER_halos (A : AtMost k h h') (hv : h.vMax = h'.vMax) (hv0 : 0 < h.vMax) (hI : I.Exact) (hk : 0 ≤ k) (hh : Orderly h) (hh' : Orderly h') {e : AtomicElectron} {M : ℝ}
    (hM : 0 < M) (hB : 0 < e.binding) (hF : ∀ q E, 0 ≤ e.ionizationFormFactor U q E) (hr : 0 ≤ p.sigmaElectron) (hm : 0 < p.mass) (hE : 0 < E) :
    OkScaled 1 k (dRdEeER U I E p h M e) (dRdEeER U I E p h' M e) := by
  have hcs := fun q v => d2SigmaIonization_nonneg (U := U) (p := p) hr hF hE.le q v
  have hs : ∀ q v, p.d2SigmaIonization U q E v e = (1 / 1000) * (1 / 1000) * p.d2SigmaIonization U q E (1 / 1000) e / v ^ 2 := fun q v => by
    unfold DMParticle.d2SigmaIonization DMParticle.dSigmadq2Electron
    cases p.interaction <;> simp only [div_eq_mul_inv, mul_inv, sq, one_mul] <;> norm_num <;> ring
  by_cases ho : energeticallyClosed p.mass h.vMax e.binding
  · unfold dRdEeER
    dsimp only
    rw [← hv, if_pos ho, if_pos ho]
    exact .zero _ _
  have hset : {q | CanTransfer p.mass h.vMax q e.binding} = Set.Icc (qMinER p.mass h.vMax e.binding) (qMaxER p.mass h.vMax e.binding) := by
    ext q; exact reachable_momenta hm hv0 hB ho q
  have hmm : qMinER p.mass h.vMax e.binding ≤ qMaxER p.mass h.vMax e.binding := by
    unfold qMinER qMaxER
    have := Real.sqrt_nonneg (p.mass * p.mass * h.vMax * h.vMax - 2 * p.mass * e.binding)
    linarith
  obtain ⟨_, _, _, hlo0, _⟩ := qMinER_eq hm hv0 hB (by rw [hset]; exact isLeast_Icc hmm) (by rw [hset]; exact isGreatest_Icc hmm)
  unfold dRdEeER
  dsimp only
  rw [← hv, if_neg ho, if_neg ho]
  by_cases htab : e.qMax < qMinER p.mass h.vMax e.binding
  · rw [if_pos htab, if_pos htab]
    exact .zero _ _
  rw [if_neg htab, if_neg htab, if_neg (not_le.2 hlo0), if_neg (not_le.2 hlo0)]
  generalize htop : (if e.qMax < qMaxER p.mass h.vMax e.binding then e.qMax else qMaxER p.mass h.vMax e.binding) = top
  have hle1 : qMinER p.mass h.vMax e.binding ≤ top := by
    rw [← htop]; split_ifs
    · exact not_lt.1 htab
    · exact hmm
  have htop0 := hlo0.trans_le hle1
  rw [logSpace_get (by norm_num), logSpace_get (by norm_num)]
  simp only [Outcome.bind_ok]
  rw [log_step hlo0 htop0]
  have hdl : 0 ≤ Real.log (top / qMinER p.mass h.vMax e.binding) / (((100 : ℕ) : ℝ) - 1) :=
    div_nonneg (Real.log_nonneg ((one_le_div hlo0).2 hle1)) (by norm_num)
  generalize Real.log (top / qMinER p.mass h.vMax e.binding) / (((100 : ℕ) : ℝ) - 1) = dl at hdl ⊢
  refine OkScaled.times (by positivity) (OkScaled.sumOver fun q hq => ?_)
  have hq0 : 0 < q := logSpace_pos hlo0 htop0 hq
  have hw : 0 < vMinimalElectrons q (e.binding + E) p.mass := by unfold vMinimalElectrons; positivity
  by_cases hlt : vMinimalElectrons q (e.binding + E) p.mass < h.vMax
  · have hlt' := hlt
    rw [hv] at hlt'
    have hg : ∀ g ∈ [h, h'], vMinimalElectrons q (e.binding + E) p.mass < g.vMax := by
      intro g hg
      rcases List.mem_cons.1 hg with rfl | hg
      · exact hlt
      · rw [List.mem_singleton.1 hg]; exact hlt'
    refine AtMost.term A hI hk hh hh' (C := 2 * dl * q * q) (b := p.useEtaFunction) (R := fun g => dRdEeERTerm U I E dl p g e q) hw (by positivity) hm
      (s := (1 / 1000) * (1 / 1000) * p.d2SigmaIonization U q E (1 / 1000) e) (mul_nonneg (by norm_num) (hcs _ _)) (hs q)
      (fun g hm hc => absurd hc (not_lt.2 (hg g hm).le)) (fun g hm _ u => ?_) (fun g hm _ u => ?_) <;>
      unfold dRdEeERTerm <;> dsimp only
    · rw [if_pos (hg g hm), if_pos u]
      congr 1
      funext x
      congr 1
      ring
    · rw [if_pos (hg g hm), if_neg u]
  · unfold dRdEeERTerm
    dsimp only
    rw [← hv, if_neg hlt, if_neg hlt]
    exact .zero _ _

theorem migdal_halos (A : AtMost k h h') (hI : I.Exact) (hk : 0 ≤ k) (hh : Orderly h) (hh' : Orderly h') (hu : h.useEta = true) (hv : 0 < h.vMax) {e : AtomicElectron}
    (hp : p.useEtaFunction = true) (hm : 0 < p.mass) (hi : PhysicalIsotope iso) (hB : 0 < e.binding) (hE : 0 < E) (hF : ∀ q E, 0 ≤ e.ionizationFormFactor U q E)
    (hσ : LocallyIntegrableOn (fun ER => migdalCrossSection U p iso e ER E (1 / 1000)) (Set.Ioi 0)) :
    dRdEeMigdalIsotope U I E p h iso e ≤ k * dRdEeMigdalIsotope U I E p h' iso e := by
  have hM := hi.1
  have hu' : h'.useEta = true := by rw [← A.method]; exact hu
  have hv' := hv.trans_le A.fastest
  have hcs : ∀ ER, 0 ≤ p.d2SigmaMigdal U ER E (1 / 1000) iso e := fun ER => by
    rw [← migdal_eq]; exact d2SigmaMigdal_nonneg hi hF hE.le ER _
  have hσ2 : ∀ a b, 0 < a → IntegrableOn (fun ER => p.d2SigmaMigdal U ER E (1 / 1000) iso e) (Set.Icc a b) := fun a b ha => by
    have := hσ.integrableOn_compact_subset (t := Set.Icc a b) (fun y hy => ha.trans_le hy.1) isCompact_Icc
    simpa only [migdal_eq] using this
  have hreg := etaRegular_of_falling hh.inverse
  have hreg' := etaRegular_of_falling hh'.inverse
  obtain ⟨hlo, hhi⟩ := migdal_range_pos (h := h) (e := e) (p := p) hM hv hB hm
  obtain ⟨hlo', hhi'⟩ := migdal_range_pos (h := h') (e := e) (p := p) hM hv' hB hm
  have int1 : ∀ a b, 0 < a → IntegrableOn (migdalIntegrand U I E p h iso e) (Set.Icc a b) := fun a b ha =>
    migdalIntegrand_integrable hp hu hm hM hv hB hE hreg ha (hσ2 a b ha)
  have int2 : ∀ a b, 0 < a → IntegrableOn (migdalIntegrand U I E p h' iso e) (Set.Icc a b) := fun a b ha =>
    migdalIntegrand_integrable hp hu' hm hM hv' hB hE hreg' ha (hσ2 a b ha)
  have nn : ∀ ER, 0 < ER → 0 ≤ migdalIntegrand U I E p h' iso e ER := fun ER hER => by
    rw [migdalIntegrand_value hp hu' hER]
    split_ifs with g
    · exact le_rfl
    · have := hcs ER
      have := hh'.density
      have := hreg'.nonneg _ (vMinimalMigdal_pos hm hM hER (by linarith : 0 < e.binding + E)).le (not_le.1 g).le
      positivity
  have pt : ∀ ER, 0 < ER → migdalIntegrand U I E p h iso e ER ≤ k * migdalIntegrand U I E p h' iso e ER := fun ER hER => by
    by_cases g : h.vMax ≤ vMinimalMigdal ER E p.mass iso.mass e.binding
    · rw [migdalIntegrand_value hp hu hER, if_pos g]
      exact mul_nonneg hk (nn ER hER)
    · rw [migdalIntegrand_value hp hu hER, migdalIntegrand_value hp hu' hER, if_neg g, if_neg (fun hc => g (A.fastest.trans hc))]
      obtain ⟨x, y, e1, e2, hle⟩ := A.inverse _ (vMinimalMigdal_pos hm hM hER (by linarith : 0 < e.binding + E)).le (not_le.1 g).le
      rw [e1, e2]
      simp only [Outcome.valueOr0]
      have := mul_le_mul_of_nonneg_left hle (a := p.d2SigmaMigdal U ER E (1 / 1000) iso e * (1 / 1000) * (1 / 1000) / p.mass)
        (by have := hcs ER; positivity)
      calc _ = p.d2SigmaMigdal U ER E (1 / 1000) iso e * (1 / 1000) * (1 / 1000) / p.mass * (h.density * x) := by ring
        _ ≤ _ := this
        _ = _ := by ring
  have lo' : erMinMigdal h'.vMax iso.mass e.binding ≤ erMinMigdal h.vMax iso.mass e.binding := by
    have := A.fastest
    unfold erMinMigdal
    gcongr
  have hi' : erMaxMigdal h.vMax p.mass iso.mass ≤ erMaxMigdal h'.vMax p.mass iso.mass := by
    have := reducedMass_pos hm hM
    have := A.fastest
    unfold erMaxMigdal
    gcongr
  unfold dRdEeMigdalIsotope
  rw [hI, hI, mul_left_comm k]
  refine mul_le_mul_of_nonneg_left ?_ (by positivity)
  set a := erMinMigdal h.vMax iso.mass e.binding
  set b := erMaxMigdal h.vMax p.mass iso.mass
  set a' := erMinMigdal h'.vMax iso.mass e.binding
  set b' := erMaxMigdal h'.vMax p.mass iso.mass
  have pos : ∀ x y, 0 < x → x ≤ y → 0 ≤ ∫ z in x..y, migdalIntegrand U I E p h' iso e z := fun x y hx hxy =>
    intervalIntegral.integral_nonneg hxy fun z hz => nn _ (hx.trans_le hz.1)
  rcases lt_or_ge b a with g | g
  · have zero : ∫ x in a..b, migdalIntegrand U I E p h iso e x = 0 := by
      rw [intervalIntegral.integral_congr (g := fun _ => 0), intervalIntegral.integral_zero]
      intro ER hER
      rw [Set.uIcc_of_ge g.le] at hER
      refine migdalIntegrand_zero hp hu hm hM hv hB hE (hhi.trans_le hER.1) ?_
      rcases hER.2.lt_or_eq with h1 | h1
      · exact .inl h1
      · exact .inr (by rw [h1]; exact g)
    rw [zero]
    refine mul_nonneg hk ?_
    rcases lt_or_ge b' a' with g' | g'
    · rw [intervalIntegral.integral_congr (g := fun _ => 0), intervalIntegral.integral_zero]
      intro ER hER
      rw [Set.uIcc_of_ge g'.le] at hER
      refine migdalIntegrand_zero hp hu' hm hM hv' hB hE (hhi'.trans_le hER.1) ?_
      rcases hER.2.lt_or_eq with h1 | h1
      · exact .inl h1
      · exact .inr (by rw [h1]; exact g')
    · exact pos _ _ hlo' g'
  have ii : ∀ f : ℝ → ℝ, (∀ a b, 0 < a → IntegrableOn f (Set.Icc a b)) → ∀ x y, 0 < x → x ≤ y → IntervalIntegrable f volume x y := fun f hf x y hx hxy => by
    rw [intervalIntegrable_iff_integrableOn_Icc_of_le hxy]
    exact hf x y hx
  have s1 := intervalIntegral.integral_add_adjacent_intervals (ii _ int2 a' a hlo' lo') (ii _ int2 a b hlo g)
  have s2 := intervalIntegral.integral_add_adjacent_intervals (ii _ int2 a' b hlo' (lo'.trans g)) (ii _ int2 b b' hhi hi')
  have r1 := pos _ _ hlo' lo'
  have r2 := pos _ _ hhi hi'
  have first : ∫ x in a..b, migdalIntegrand U I E p h iso e x ≤ k * ∫ x in a..b, migdalIntegrand U I E p h' iso e x := by
    rw [← intervalIntegral.integral_const_mul]
    exact intervalIntegral.integral_mono_on g (ii _ int1 a b hlo g) ((ii _ int2 a b hlo g).const_mul _) fun x hx => pt x (hlo.trans_le hx.1)
  refine first.trans (mul_le_mul_of_nonneg_left ?_ hk)
  linarith

end Obscura
