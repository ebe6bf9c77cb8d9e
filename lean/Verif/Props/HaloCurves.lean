import Verif.Props.HaloComparison

/-!
# C117: counted recoils, limit curves and changes of the escape velocity
-/

namespace Obscura

open Spec NuclearDetector DMParticle MeasureTheory

variable {U : Units} {I : Integrator} {T : Tools} {p : DMParticle} {h h' : Distribution} {k : ℝ} {nd : NuclearDetector} {d : Detector} {D : AnyDetector}

/-- C117 (counted recoils). So are the recoils counted above a threshold, if the interpolation of both spectra by 200 points is exact. -/
theorem C117_counting_partial (hk : 0 ≤ k) (A : AtMost k h h') (hh : Orderly h) (hh' : Orderly h') (hI : T.integrate.Exact) (hm : 0 < p.mass)
    (hfd : 0 ≤ p.fractionalDensity) (hP : Proper U T.integrate h nd d [p]) (hP' : Proper U T.integrate h' nd d [p]) (hw : d.energyThreshold ≤ d.energyMax)
    (hd : d.analysis ≠ .binnedPoisson)
    (hT : ∀ g ∈ [h, h'], T.interpolationIntegral (logSpace d.energyThreshold d.energyMax 200)
      ((logSpace d.energyThreshold d.energyMax 200).map fun E => (nd.toClass U T g).dRdE d E p) d.energyThreshold d.energyMax =
      ∫ E in d.energyThreshold..d.energyMax, (nd.toClass U T g).dRdE d E p) :
    ∃ s s', (nd.toClass U T h).signalsTotal d p = .ok s ∧ (nd.toClass U T h').signalsTotal d p = .ok s' ∧ s ≤ k * s' := by
  have ht := hP.threshold
  have total : ∀ g ∈ [h, h'], (nd.toClass U T g).signalsTotal d p = .ok (d.exposure * ∫ E in d.energyThreshold..d.energyMax, (nd.dRdE U T.integrate d E p g).valueOr0) :=
    fun g hg => by
      show d.baseSignalsTotal T _ _ = _
      unfold Detector.baseSignalsTotal
      rw [if_neg hd, if_neg (by push Not; exact ⟨ht, ht.trans_le hw⟩)]
      dsimp only
      exact congrArg (fun z => Outcome.ok (d.exposure * z)) (hT g hg)
  refine ⟨_, _, total h (by simp), total h' (by simp), ?_⟩
  rw [mul_left_comm k, ← intervalIntegral.integral_const_mul k]
  refine mul_le_mul_of_nonneg_left ?_ hP.exposure
  refine intervalIntegral.integral_mono_on hw (hP.spectra p (by simp)) ((hP'.spectra p (by simp)).const_mul _) fun E hE => ?_
  obtain ⟨x, y, e1, e2, hxy⟩ := C117_rate (d := d) (U := U) hk A hh hh' hI hm hfd hP.fractions hP.composition hP.tables hP.flat hP.isotopes (ht.trans_le hE.1)
    fun hres => ⟨by
      have : 0 < nd.resolution := lt_of_lt_of_le (by have := U.eV_pos; positivity) hres
      have := hE.1
      linarith, fun g hg a b ha => by
        rcases List.mem_cons.1 hg with rfl | hg
        · exact hP.resolution hres p (by simp) E a b ha
        · rw [List.mem_singleton.1 hg]; exact hP'.resolution hres p (by simp) E a b ha⟩
  rw [e1, e2]
  exact hxy

/-- What a point of a limit curve is: the limit for a mass that was asked for. -/
theorem curve_point {cert : ℝ} {masses : List ℝ} {rows : List (ℝ × ℝ)} {d' : Detector} {p' : DMParticle} (hd : ReachableDetector d) (hp : Reachable U p)
    (hm : ∀ m ∈ masses, 0 < m) {C : DetectorClass} (hc : d.upperLimitCurve U T C p masses cert = .ok (d', p', rows)) {m x : ℝ} (hx : (m, x) ∈ rows) :
    m ∈ masses ∧ 0 < x ∧ ∃ q r, p.setMass U m = .ok q ∧ d.upperLimit U T C q cert = .ok r ∧ r.2.2 = x := by
  obtain ⟨low, lim, -, e1, e2⟩ := C33_curve hd hp hm hc
  subst e2
  obtain ⟨m', hm', hx⟩ := List.mem_filterMap.1 hx
  split_ifs at hx with hcond
  simp only [Option.some.injEq, Prod.mk.injEq] at hx
  obtain ⟨rfl, rfl⟩ := hx
  have := e1 m' hm' hcond.1
  unfold upperLimitAt at this
  obtain ⟨q, hq, this⟩ := Outcome.bind_eq_ok.1 this
  obtain ⟨r, hr, this⟩ := Outcome.bind_eq_ok.1 this
  exact ⟨hm', hcond.2, q, r, hq, hr, Outcome.ok.inj this⟩

/-- C117 (limit curves). So of two limit curves, found with the two halos for any masses, the one of the second halo lies at every mass at most at `k` times
the other one: with counting and with binned analyses. -/
theorem C117_curve {cert : ℝ} {masses : List ℝ} {rows rows' : List (ℝ × ℝ)} {d₁ d₂ : Detector} {p₁ p₂ : DMParticle} (hR : T.findRoot.Exact)
    (hd : ReachableDetector D.base) (hp : Reachable U p) (hm : ∀ m ∈ masses, 0 < m)
    (hS : ∀ m ∈ masses, ∀ q, p.setMass U m = .ok q →
      (∃ c c' s s', Sees U T h D q c s ∧ Sees U T h' D q c' s' ∧ s ≤ k * s') ∨
      ∃ c c' ss ss', SeesInBins U T h D q c ss ∧ SeesInBins U T h' D q c' ss' ∧ ∀ i < D.base.bins, ss.getD i 0 ≤ k * ss'.getD i 0)
    (hc : D.base.upperLimitCurve U T (D.toClass U T h) p masses cert = .ok (d₁, p₁, rows))
    (hc' : D.base.upperLimitCurve U T (D.toClass U T h') p masses cert = .ok (d₂, p₂, rows')) {m x x' : ℝ} (hx : (m, x) ∈ rows) (hx' : (m, x') ∈ rows') :
    x' ≤ k * x := by
  obtain ⟨k1, z1, q1, r1, s1, u1, rfl⟩ := curve_point hd hp hm hc hx
  obtain ⟨-, z2, q2, r2, s2, u2, rfl⟩ := curve_point hd hp hm hc' hx'
  obtain rfl : q1 = q2 := Outcome.ok.inj (s1.symm.trans s2)
  rcases hS m k1 q1 s1 with ⟨c, c', s, s', S, S', hle⟩ | ⟨c, c', ss, ss', S, S', hle⟩
  · exact C117_limit hR S S' hle u1 u2 z1 z2
  · exact C117_limit_binned hR S S' hle u1 u2 z1 z2

/-- C117 (a change of the escape velocity). Raising the escape velocity of a standard halo multiplies the number of particles at every speed that was
possible before at least by the ratio of the normalizations; so no rate falls by more than this factor. -/
theorem C117_set_escape {s : SHM} (hs : SHM.Reachable U s) (hp : s.Physical) (hoe : s.vObs ≤ s.vEsc) (ho : s.vObs = 0 ∨ 1e-8 * s.v0 ≤ s.vObs)
    (hd : 0 ≤ s.density) {e : ℝ} (he : s.vEsc ≤ e) :
    AtMost ((s.setEscapeVelocity e).nEsc / s.nEsc) (Distribution.ofSHM s) (Distribution.ofSHM (s.setEscapeVelocity e)) ∧
      Orderly (Distribution.ofSHM s) ∧ Orderly (Distribution.ofSHM (s.setEscapeVelocity e)) := by
  have hp' : (s.setEscapeVelocity e).Physical := ⟨hp.1, hp.2.trans_le he⟩
  have hs' : SHM.Reachable U (s.setEscapeVelocity e) := by
    obtain ⟨s0, ops, hb, rfl⟩ := hs
    exact ⟨s0, ops ++ [.setEscapeVelocity e], hb, by simp [SHM.run, List.foldl_append, SHM.step]⟩
  have N := (SHM.WF.of_reachable hs hp).nEsc_pos
  have N' := (SHM.WF.of_reachable hs' hp').nEsc_pos
  refine C117_escape hs hs' hp hp' rfl hoe ho rfl rfl he hd hd ?_
  have : (s.setEscapeVelocity e).density = s.density := rfl
  rw [this]
  apply le_of_eq
  field_simp

/-- Non-vacuity: `SHM.sample` with an escape velocity raised from 7 to 8. -/
example : AtMost ((SHM.sample.setEscapeVelocity 8).nEsc / SHM.sample.nEsc) (Distribution.ofSHM SHM.sample) (Distribution.ofSHM (SHM.sample.setEscapeVelocity 8)) := by
  have hs : SHM.sample.Physical ∧ SHM.sample.vObs ≤ SHM.sample.vEsc ∧ 0 ≤ SHM.sample.density ∧ 1e-8 * SHM.sample.v0 ≤ SHM.sample.vObs := by
    refine ⟨⟨?_, ?_⟩, ?_, ?_, ?_⟩ <;> norm_num [SHM.sample, SHM.makeSpeed, SHM.normalize]
  exact (C117_set_escape SHM.sample_reachable hs.1 hs.2.1 (.inr hs.2.2.2) hs.2.2.1 (by norm_num [SHM.sample, SHM.makeSpeed, SHM.normalize])).1

/-- Non-vacuity: recoils of hydrogen between energies 1 and 2, in a halo and in another one with twice its density. The spectra are constant, so an
interpolation by constants is exact. -/
example (U : Units) : ∃ (v : ℝ) (d : Detector) (p : DMParticle) (s s' : ℝ), Reachable U p ∧ d.energyThreshold < d.energyMax ∧
    ((hydrogenTarget U).toClass U flatTools (flatHalo v)).signalsTotal d p = .ok s ∧
    ((hydrogenTarget U).toClass U flatTools { flatHalo v with density := 2 }).signalsTotal d p = .ok s' ∧ s ≤ 1 / 2 * s' := by
  obtain ⟨f, -, hf, hp, hfs⟩ := makeSI_eq (U := U) (m := 1) (s := 1) one_pos zero_le_one
  set p : DMParticle := { standard U 1 1 (.SI .contact (U.aEM * U.mElectron) 0) with fp := f, fn := f, lowMass := true } with hpd
  have hval : ∀ op ∈ [DMParticle.Op.setLowMassMode true], ValidOp op := fun op ho => by
    simp only [List.mem_cons, List.not_mem_nil, or_false] at ho
    rcases ho with rfl; trivial
  have hreach : Reachable U p := ⟨_, [.setLowMassMode true], .inl ⟨1, 1, one_pos, hp⟩, hval, rfl⟩
  set d : Detector := { Detector.make "x" 1 "Nuclei" with usingEnergyThreshold := true, energyThreshold := 1, energyMax := 2 } with hd
  set v := vMinimalNucleus 2 p.mass (Isotope.default U).mass with hv
  have hM : 0 < (Isotope.default U).mass := by simp [Isotope.default, U.mProton_pos]
  have hI : flatTools.integrate.Exact := exactIntegrator_exact
  have ff : ∀ ρ, FallingEta { flatHalo v with density := ρ } := fun ρ v w _ _ _ => ⟨1, 1, rfl, rfl, zero_le_one, le_rfl⟩
  have fs : ∀ ρ, ProperSpeeds { flatHalo v with density := ρ } := fun ρ => ⟨fun _ _ => le_rfl, by simp [flatHalo]⟩
  have A : AtMost (1 / 2) (flatHalo v) { flatHalo v with density := 2 } :=
    ⟨rfl, le_rfl, fun u _ _ => by simp [flatHalo], fun u _ _ => ⟨1, 1, rfl, rfl, by norm_num [flatHalo]⟩⟩
  have hev : (0 : ℝ) < 1 / 10 ^ 6 * U.eV := by have := U.eV_pos; positivity
  have t1 : (1 : ℝ) ≤ 2 := by norm_num
  have P : ∀ ρ, 0 ≤ ρ → Proper U flatTools.integrate { flatHalo v with density := ρ } (hydrogenTarget U) d [p] := fun ρ hρ => by
    have hspec : FallingSpectrum fun E => (hydrogenTarget U).dRdE U flatTools.integrate d E p { flatHalo v with density := ρ } :=
      C96_spectrum hI (hydrogen_isotopes U) hev rfl le_rfl (by simp [hydrogenTarget]) zero_le_one (.inr rfl) one_pos
        hρ zero_le_one (fun _ _ => ff ρ) (fs ρ)
    exact
      { fractions := le_rfl
        composition := by simp [hydrogenTarget]
        tables := by simp [hydrogenTarget]
        flat := zero_le_one
        isotopes := hydrogen_isotopes U
        exposure := zero_le_one
        threshold := one_pos
        efficiencies := fun i hi => by simp [hd, Detector.make] at hi
        resolution := fun hc => absurd hc (not_le.2 hev)
        spectra := fun q hq => AntitoneOn.intervalIntegrable fun x hx y _ hxy => by
          rw [List.mem_singleton.1 hq]
          have hx : x ∈ Set.uIcc (1 : ℝ) 2 := hx
          rw [Set.uIcc_of_le t1] at hx
          exact (FallingSpectrum.value hspec (one_pos.trans_le hx.1)).2.2 y hxy }
  have flat : ∀ ρ E, 1 ≤ E → E ≤ 2 → ((hydrogenTarget U).dRdE U flatTools.integrate d E p { flatHalo v with density := ρ }).valueOr0 =
      ((hydrogenTarget U).dRdE U flatTools.integrate d 1 p { flatHalo v with density := ρ }).valueOr0 := by
    have iso : ∀ ρ E, E ≤ 2 → dRdERIsotope U flatTools.integrate E p { flatHalo v with density := ρ } (Isotope.default U) =
        .ok (1 / (Isotope.default U).mass * (ρ * 1) / p.mass * ((1 / 1000 : ℝ) * (1 / 1000) * p.dSigmadERNucleus U 1 (Isotope.default U) (1 / 1000)) * 1) := by
      intro ρ E hE
      unfold dRdERIsotope
      have hle : vMinimalNucleus E p.mass (Isotope.default U).mass ≤ v := by
        rw [hv]
        unfold vMinimalNucleus
        exact Real.sqrt_le_sqrt (by gcongr)
      rw [if_neg (by simpa [flatHalo] using hle), if_pos ⟨rfl, rfl⟩]
      have : p.dSigmadERNucleus U E (Isotope.default U) (1 / 1000) = p.dSigmadERNucleus U 1 (Isotope.default U) (1 / 1000) := by
        simp [dSigmadERNucleus, dSigmadq2Nucleus, p, standard, formFactor2]
      rw [← this]
      rfl
    intro ρ E h1 h2
    unfold NuclearDetector.dRdE
    rw [if_pos (by simp only [hydrogenTarget]; exact hev), if_pos (by simp only [hydrogenTarget]; exact hev)]
    unfold NuclearDetector.theoryRate dRdERNucleus
    simp [hydrogenTarget, sumOver, collect, vecGet, NuclearDetector.efficiency, iso ρ E h2, iso ρ 1 t1]
  have hl : logSpace 1 2 200 = 1 :: (logSpace 1 2 200).tail := by
    have : ∀ l : List ℝ, l.head? = some 1 → l = 1 :: l.tail := fun l hl => by cases l <;> simp_all
    apply this
    unfold logSpace
    rw [List.range_succ_eq_map (n := 199)]
    simp
  have exact : ∀ ρ, flatTools.interpolationIntegral (logSpace d.energyThreshold d.energyMax 200)
      ((logSpace d.energyThreshold d.energyMax 200).map fun E => ((hydrogenTarget U).toClass U flatTools { flatHalo v with density := ρ }).dRdE d E p)
        d.energyThreshold d.energyMax =
      ∫ E in d.energyThreshold..d.energyMax, ((hydrogenTarget U).toClass U flatTools { flatHalo v with density := ρ }).dRdE d E p := fun ρ => by
    show flatTools.interpolationIntegral (logSpace 1 2 200) ((logSpace 1 2 200).map fun E =>
      ((hydrogenTarget U).dRdE U flatTools.integrate d E p { flatHalo v with density := ρ }).valueOr0) 1 2 =
      ∫ E in (1 : ℝ)..2, ((hydrogenTarget U).dRdE U flatTools.integrate d E p { flatHalo v with density := ρ }).valueOr0
    rw [intervalIntegral.integral_congr (g := fun _ => ((hydrogenTarget U).dRdE U flatTools.integrate d 1 p { flatHalo v with density := ρ }).valueOr0)
      fun E hE => by rw [Set.uIcc_of_le t1] at hE; exact flat ρ E hE.1 hE.2]
    rw [hl, List.map_cons, intervalIntegral.integral_const]
    simp only [flatTools, List.headD_cons, smul_eq_mul]
    ring
  obtain ⟨s, s', k1, k2, k3⟩ := C117_counting_partial (U := U) (T := flatTools) (by norm_num) A ⟨zero_le_one, fs 1, ff 1⟩ ⟨zero_le_two, fs 2, ff 2⟩ hI
    (one_pos : (0 : ℝ) < p.mass) (zero_le_one : (0 : ℝ) ≤ p.fractionalDensity) (P 1 zero_le_one) (P 2 zero_le_two) t1 (by simp [hd, Detector.make])
    (fun g hg => by
      rcases List.mem_cons.1 hg with rfl | hg
      · exact exact 1
      · rw [List.mem_singleton.1 hg]; exact exact 2)
  exact ⟨v, d, p, s, s', hreach, by norm_num [hd], k1, k2, k3⟩

end Obscura
