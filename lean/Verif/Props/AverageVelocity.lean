import Verif.Lemmas.AverageVelocity
import Verif.Props.HaloPP
import Verif.Props.Distribution

/-!
# Property C72: the velocity distribution is normalised and its mean is minus the velocity of the observer
-/

namespace Obscura

open Real Set MeasureTheory

/-- A velocity PDF on the speed domain `[lo, hi]` is what an observer moving with velocity `w` through a halo at rest sees: a
non-negative function whose integral over all velocities is 1, without support outside the speed domain. -/
structure SeenBy (pdf : Vec → ℝ) (lo hi : ℝ) (w : Vec) : Prop where
  nonneg : ∀ u, 0 ≤ pdf u
  integrable : Integrable pdf
  normalised : ∫ u, pdf u = 1
  support : ∀ u, pdf u ≠ 0 → lo ≤ vnorm u ∧ vnorm u ≤ hi
  /-- symmetric under point reflection in the rest frame of the halo -/
  symmetric : ∀ u, pdf (u - w) = pdf (-u - w)

theorem shm_pdf_eq {s : SHM} (h0 : s.vMin = 0) (u : Vec) :
    s.pdfVelocitySHM u = maxwell s.v0 s.vEsc (1 / s.nEsc * ((s.v0 * √π) ^ 3)⁻¹) (dot u u) := by
  unfold SHM.pdfVelocitySHM maxwell vnorm
  rw [h0]

theorem dot_neg (u : Vec) : dot (-u) (-u) = dot u u := by simp [dot]

theorem measurable_dot : Measurable fun u : Vec => dot u u := by unfold dot; fun_prop

/-- The facts about the isotropic part in the rest frame of the halo. -/
theorem shm_rest {s : SHM} (h0 : s.vMin = 0) (hN : s.nEsc = SHM.nEscOf s.v0 s.vEsc) (ha : 0 < s.v0) (he : 0 < s.vEsc) :
    Measurable s.pdfVelocitySHM ∧ (∀ u, 0 ≤ s.pdfVelocitySHM u) ∧
    (∀ u, s.pdfVelocitySHM u ≤ 1 / s.nEsc * ((s.v0 * √π) ^ 3)⁻¹) ∧ (∀ u, s.vEsc < vnorm u → s.pdfVelocitySHM u = 0) ∧
    (∀ u, s.pdfVelocitySHM (-u) = s.pdfVelocitySHM u) ∧ Integrable s.pdfVelocitySHM ∧ ∫ u, s.pdfVelocitySHM u = 1 := by
  have hNp : 0 < s.nEsc := by rw [hN]; exact nEscOf_pos ha he
  have hπ := sqrt_pi_pos
  have hC : 0 ≤ 1 / s.nEsc * ((s.v0 * √π) ^ 3)⁻¹ := by positivity
  have hf : s.pdfVelocitySHM = fun u => maxwell s.v0 s.vEsc (1 / s.nEsc * ((s.v0 * √π) ^ 3)⁻¹) (dot u u) := funext (shm_pdf_eq h0)
  have hm : Measurable s.pdfVelocitySHM := by rw [hf]; exact (measurable_maxwell _ _ _).comp measurable_dot
  have h1 : ∀ u, 0 ≤ s.pdfVelocitySHM u := fun u => by rw [hf]; exact maxwell_nonneg hC _
  have h2 : ∀ u, s.pdfVelocitySHM u ≤ 1 / s.nEsc * ((s.v0 * √π) ^ 3)⁻¹ := fun u => by rw [hf]; exact maxwell_le hC _
  have h3 : ∀ u, s.vEsc < vnorm u → s.pdfVelocitySHM u = 0 := fun u hu => if_pos (Or.inl hu)
  refine ⟨hm, h1, h2, h3, fun u => by rw [hf]; simp only [dot_neg], ?_, ?_⟩
  · exact (iterated_eq_integral hm (fun u => by rw [abs_of_nonneg (h1 u)]; exact h2 u) he.le h3).1
  · rw [integral_eq_lintegral_of_nonneg_ae (Filter.Eventually.of_forall h1) hm.aestronglyMeasurable, hf]
    simp only
    rw [hN, lintegral_maxwell ha he, ENNReal.toReal_one]

/-- From the rest frame of the halo to the frame of the observer. -/
theorem seenBy_of_rest {g : Vec → ℝ} {K e : ℝ} (hm : Measurable g) (h0 : ∀ u, 0 ≤ g u) (hK : ∀ u, g u ≤ K) (he : 0 ≤ e)
    (hz : ∀ u, e < vnorm u → g u = 0) (hev : ∀ u, g (-u) = g u) (hone : ∫ u, g u = 1) (w : Vec) {R : ℝ} (hR : e + vnorm w ≤ R) :
    SeenBy (fun u => g (u + w)) 0 R w where
  nonneg := fun u => h0 _
  integrable := (iterated_eq_integral hm (fun u => by rw [abs_of_nonneg (h0 u)]; exact hK u) he hz).1.comp_add_right w
  normalised := by rw [integral_add_right_eq_self (fun u => g u) w, hone]
  support := fun u hu => ⟨vnorm_nonneg u, by
    have : vnorm (u + w) ≤ e := by
      by_contra hc
      exact hu (hz _ (not_le.1 hc))
    linarith [vnorm_sub_le u w]⟩
  symmetric := fun u => by
    simp only [sub_add_cancel]
    exact (hev u).symm

/-- C72 for standard halo models: after any history of setters, for every speed of the observer (including observers faster than
the escape speed, for which `PDF_Speed` is wrong, see `C21_fails`), `PDF_Velocity` is a normalised density on the velocities
whose speed lies in the domain, symmetric around the velocity of the halo relative to the observer. -/
theorem C72_velocity_distribution (U : Units) (s : SHM) (h : SHM.Reachable U s) (hp : s.Physical) :
    SeenBy s.pdfVelocity s.vMin s.vMax s.observerVelocity := by
  have hw := SHM.WF.of_reachable h hp
  obtain ⟨h1, h2, h3, h4, h5, _, h7⟩ := shm_rest hw.vMin hw.nEsc hw.v0_pos hw.vEsc_pos
  rw [hw.vMin]
  exact seenBy_of_rest h1 h2 h3 hw.vEsc_pos.le h4 h5 h7 s.velObs (by rw [hw.vMax, hw.vObs_eq])

/-- C72 for standard halo models: `Average_Velocity` is minus the observer's velocity. -/
theorem C72_mean (I : Integrator3) (hI : I.Exact) (U : Units) (s : SHM) (h : SHM.Reachable U s) (hp : s.Physical) :
    s.averageVelocity I = -s.observerVelocity := by
  have hw := SHM.WF.of_reachable h hp
  obtain ⟨h1, h2, h3, h4, h5, _, h7⟩ := shm_rest hw.vMin hw.nEsc hw.v0_pos hw.vEsc_pos
  funext i
  unfold SHM.averageVelocity averageVelocity
  rw [hI, hw.vMin]
  exact mean_boosted h1 (fun u => by rw [abs_of_nonneg (h2 u)]; exact h3 u) hw.vEsc_pos.le h4 h5 h7 s.velObs
    (by rw [hw.vMax, hw.vObs_eq]) i

example : ∃ s, SHM.Reachable Units.sample s ∧ s.Physical ∧ s.vEsc < s.vObs ∧ s.observerVelocity ≠ 0 := by
  refine ⟨SHM.makeSpeed 1 2 9 7, ⟨_, [], .speed 1 2 9 7 (by norm_num), rfl⟩, by norm_num [SHM.Physical, SHM.makeSpeed, SHM.normalize],
    by norm_num [SHM.makeSpeed, SHM.normalize], fun h => ?_⟩
  have := congrFun h 1
  simp [SHM.observerVelocity, SHM.makeSpeed, SHM.normalize] at this

/-- C72 for the halo model of the default constructor, whose maximal speed is a rounded constant: the same. -/
theorem C72_default (I : Integrator3) (hI : I.Exact) (U : Units) :
    SeenBy (SHM.default U).pdfVelocity (SHM.default U).vMin (SHM.default U).vMax (SHM.default U).observerVelocity ∧
    (SHM.default U).averageVelocity I = -(SHM.default U).observerVelocity := by
  have hkm : 0 < U.km / U.sec := div_pos U.km_pos U.sec_pos
  have hv0 : (SHM.default U).v0 = 220 * (U.km / U.sec) := by simp only [SHM.default, SHM.normalize]; ring
  have hve : (SHM.default U).vEsc = 544 * (U.km / U.sec) := by simp only [SHM.default, SHM.normalize]; ring
  obtain ⟨h1, h2, h3, h4, h5, _, h7⟩ := shm_rest (s := SHM.default U) rfl rfl (by rw [hv0]; positivity) (by rw [hve]; positivity)
  have hR : (SHM.default U).vEsc + vnorm (SHM.default U).velObs ≤ (SHM.default U).vMax := by
    have hm : (SHM.default U).vMax = 544 * (U.km / U.sec) + 232.58 * (U.km / U.sec) := by simp only [SHM.default, SHM.normalize]; ring
    rw [hve, hm]
    refine add_le_add le_rfl ?_
    unfold vnorm
    rw [Real.sqrt_le_left (by positivity)]
    have hd : dot (SHM.default U).velObs (SHM.default U).velObs = (11.1 ^ 2 + 232.2 ^ 2 + 7.3 ^ 2) * (U.km / U.sec) ^ 2 := by
      simp only [SHM.default, SHM.normalize, dot, Pi.add_apply, Matrix.cons_val_zero, Matrix.cons_val_one, Matrix.cons_val]
      ring
    rw [hd, mul_pow]
    exact mul_le_mul_of_nonneg_right (by norm_num) (by positivity)
  have he : 0 ≤ (SHM.default U).vEsc := by rw [hve]; positivity
  refine ⟨seenBy_of_rest h1 h2 h3 he h4 h5 h7 _ hR, ?_⟩
  funext i
  unfold SHM.averageVelocity averageVelocity
  rw [hI, show (SHM.default U).vMin = 0 from rfl]
  exact mean_boosted h1 (fun u => by rw [abs_of_nonneg (h2 u)]; exact h3 u) he h4 h5 h7 _ hR i

/-- The facts about the anisotropic part in the rest frame of the halo. -/
theorem sausage_rest (N : Numerics) (p : HaloPPParams) (h : p.Physical) :
    Measurable (p.fresh N).pdfVelocityS ∧ (∀ u, 0 ≤ (p.fresh N).pdfVelocityS u) ∧ (∀ u, (p.fresh N).pdfVelocityS u ≤ p.amp) ∧
    (∀ u, p.vesc < vnorm u → (p.fresh N).pdfVelocityS u = 0) ∧ (∀ u, (p.fresh N).pdfVelocityS (-u) = (p.fresh N).pdfVelocityS u) ∧
    Integrable (p.fresh N).pdfVelocityS ∧ ∫ u, (p.fresh N).pdfVelocityS u = 1 := by
  obtain ⟨f1, f2, f3, f4, f5, f6⟩ := h.facts
  have he := h.2.1
  have hf : (p.fresh N).pdfVelocityS = fun u => sausage p.sr p.st p.amp p.vesc (u 0) (u 1) (u 2) := funext (fresh_pdfVelocityS N p h)
  have hm : Measurable (p.fresh N).pdfVelocityS := by
    rw [hf]
    exact (measurable_sausage p.sr p.st p.amp p.vesc).comp (by fun_prop : Measurable fun u : Vec => (u 0, u 1, u 2))
  have h1 : ∀ u, 0 ≤ (p.fresh N).pdfVelocityS u := fun u => by rw [hf]; exact sausage_nonneg f6.le _ _ _
  have h2 : ∀ u, (p.fresh N).pdfVelocityS u ≤ p.amp := fun u => by rw [hf]; exact sausage_le f6.le _ _ _
  have h3 : ∀ u, p.vesc < vnorm u → (p.fresh N).pdfVelocityS u = 0 := fun u hu => if_pos hu
  refine ⟨hm, h1, h2, h3, fun u => by rw [hf]; simp [sausage], ?_, ?_⟩
  · exact (iterated_eq_integral hm (fun u => by rw [abs_of_nonneg (h1 u)]; exact h2 u) he.le h3).1
  · rw [integral_eq_lintegral_of_nonneg_ae (Filter.Eventually.of_forall h1) hm.aestronglyMeasurable, hf]
    simp only
    rw [lintegral_sausage f1 f2 f3 f4 f6.le he]
    have : p.amp * (2 * π) ^ (1.5 : ℝ) * p.sr * p.st ^ 2 * nS p.sr p.st (p.b / (1 - p.b)) p.vesc = 1 := by
      unfold HaloPPParams.amp
      have : (0 : ℝ) < (2 * π) ^ (1.5 : ℝ) := by positivity
      field_simp
    rw [this]; simp

/-- Both components in the rest frame of the halo. -/
theorem shmpp_rest (N : Numerics) (p : HaloPPParams) (h : p.Physical) :
    let g := fun u => (1 - p.e) * (p.fresh N).toSHM.pdfVelocitySHM u + p.e * (p.fresh N).pdfVelocityS u
    Measurable g ∧ (∃ K, ∀ u, |g u| ≤ K) ∧ (∀ u, p.vesc < vnorm u → g u = 0) ∧ (∀ u, g (-u) = g u) ∧ ∫ u, g u = 1 ∧
    (0 ≤ p.e → p.e ≤ 1 → ∀ u, 0 ≤ g u) := by
  intro g
  have hw := fresh_wf N p h
  obtain ⟨h1, h2, h3, h4, h5, h6, h7⟩ := shm_rest hw.vMin hw.nEsc hw.v0_pos hw.vEsc_pos
  obtain ⟨k1, k2, k3, k4, k5, k6, k7⟩ := sausage_rest N p h
  refine ⟨(h1.const_mul _).add (k1.const_mul _), ⟨|1 - p.e| * (1 / (p.fresh N).nEsc * (((p.fresh N).v0 * √π) ^ 3)⁻¹) + |p.e| * p.amp, fun u => ?_⟩, fun u hu => ?_,
    fun u => ?_, ?_, fun h0 h01 u => ?_⟩
  · refine le_trans (abs_add_le _ _) ?_
    rw [abs_mul, abs_mul, abs_of_nonneg (h2 u), abs_of_nonneg (k2 u)]
    exact add_le_add (mul_le_mul_of_nonneg_left (h3 u) (abs_nonneg _)) (mul_le_mul_of_nonneg_left (k3 u) (abs_nonneg _))
  · simp only [g]
    rw [h4 u hu, k4 u hu]; ring
  · simp only [g]
    rw [h5, k5]
  · simp only [g]
    rw [integral_add (h6.const_mul _) (k6.const_mul _), integral_const_mul, integral_const_mul, h7, k7]; ring
  · exact add_nonneg (mul_nonneg (by linarith) (h2 u)) (mul_nonneg h0 (k2 u))

/-- C72 for the SHM++: after any history of setters that leaves physical parameters and a fraction between 0 and 1,
`PDF_Velocity` is a normalised density on the velocities whose speed lies in the domain, symmetric around the velocity of the
halo relative to the observer. -/
theorem C72_shmpp_velocity_distribution (U : Units) (N : Numerics) (p : HaloPPParams) (ops : List SHMpp.Op)
    (h : (p.afterAll U ops).Physical) (h0 : 0 ≤ (p.afterAll U ops).e) (h1 : (p.afterAll U ops).e ≤ 1) :
    let s := SHMpp.run U (p.fresh N) ops
    SeenBy s.pdfVelocity s.vMin s.vMax (p.afterAll U ops).vel := by
  intro s
  obtain ⟨e1, _, _, _, e2, e3⟩ := C19_distributions_partial U N p ops
  rw [e1, e2, e3]
  obtain ⟨g1, ⟨K, g2⟩, g3, g4, g5, g6⟩ := shmpp_rest N (p.afterAll U ops) h
  exact seenBy_of_rest g1 (g6 h0 h1) (fun u => le_trans (le_abs_self _) (g2 u)) h.2.1.le g3 g4 g5 (p.afterAll U ops).vel le_rfl

/-- C72 for the SHM++: after any history of setters `Average_Velocity` is minus the observer's velocity, whatever the fraction. -/
theorem C72_shmpp_mean (I : Integrator3) (hI : I.Exact) (U : Units) (N : Numerics) (p : HaloPPParams) (ops : List SHMpp.Op)
    (h : (p.afterAll U ops).Physical) :
    (SHMpp.run U (p.fresh N) ops).averageVelocity I = -(p.afterAll U ops).vel := by
  obtain ⟨e1, _, _, _, e2, e3⟩ := C19_distributions_partial U N p ops
  obtain ⟨g1, ⟨K, g2⟩, g3, g4, g5, _⟩ := shmpp_rest N (p.afterAll U ops) h
  funext i
  unfold SHMpp.averageVelocity averageVelocity
  rw [e1, e2, e3, hI]
  exact mean_boosted g1 g2 h.2.1.le g3 g4 g5 (p.afterAll U ops).vel le_rfl i

example : (HaloPPParams.sample.afterAll Units.sample [.setEta 0.2, .base (.setObserverVelocity ![1, 9, 0])]).Physical ∧
    0 ≤ (HaloPPParams.sample.afterAll Units.sample [.setEta 0.2, .base (.setObserverVelocity ![1, 9, 0])]).e ∧
    (HaloPPParams.sample.afterAll Units.sample [.setEta 0.2, .base (.setObserverVelocity ![1, 9, 0])]).e ≤ 1 := by
  simp [HaloPPParams.afterAll, HaloPPParams.after, HaloParams.after, HaloPPParams.Physical, HaloPPParams.sample]
  norm_num

/-- C72: a distribution known only through a table of speeds has no velocity PDF; its `Average_Velocity` is the zero vector
whatever the table contains. -/
theorem C72_imported (I : Integrator3) (hI : I.Exact) (d : Distribution) : d.averageVelocity I = 0 := by
  funext i
  unfold Distribution.averageVelocity averageVelocity basePdfVelocity
  rw [hI]
  simp

/-- The exact three-dimensional integral meets the contract. -/
theorem exists_exact3 : ∃ I : Integrator3, I.Exact :=
  ⟨fun f r1 r2 c1 c2 p1 p2 => ∫ r in r1..r2, ∫ c in c1..c2, ∫ p in p1..p2, r * r * f (sphericalCoordinates r (arccos c) p),
    fun _ _ _ _ _ _ _ => rfl⟩

end Obscura
