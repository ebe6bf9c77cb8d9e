import Verif.Spec.Examples
import Verif.Props.Runs
import Verif.Props.SummaryContent
import Verif.Props.Defaults

/-!
# C85: the example programs
-/

namespace Obscura

open Spec MeasureTheory IonizationDetector Examples

variable {U : Units} {S : Setup} {rows : List NuclearRow} {T : Tools} {I3 : Integrator3}

/-! ## The halo of the default constructor -/

theorem sun_bounds (U : Units) : 232.2 * (U.km / U.sec) ≤ (standardHalo U).vObs ∧ (standardHalo U).vObs ≤ 232.58 * (U.km / U.sec) := by
  have hk := kmsec_pos (U := U)
  have e : (standardHalo U).vObs = √(54093.34 * (U.km / U.sec) ^ 2) := by
    show vnorm _ = _
    unfold vnorm
    congr 1
    simp only [dot, Matrix.cons_val_zero, Matrix.cons_val_one, Matrix.cons_val]
    ring
  rw [e, Real.sqrt_mul (by norm_num), Real.sqrt_sq hk.le]
  constructor
  · refine mul_le_mul_of_nonneg_right ?_ hk.le
    exact Real.le_sqrt_of_sq_le (by norm_num)
  · refine mul_le_mul_of_nonneg_right ?_ hk.le
    exact Real.sqrt_le_iff.2 ⟨by norm_num, by norm_num⟩

theorem default_same (U : Units) : (SHM.default U).v0 = (standardHalo U).v0 ∧ (SHM.default U).vEsc = (standardHalo U).vEsc ∧
    (SHM.default U).vObs = (standardHalo U).vObs ∧ (SHM.default U).nEsc = (standardHalo U).nEsc ∧
    (SHM.default U).density = (standardHalo U).density := by
  have hv : ![0, 220 * U.km / U.sec, 0] + ![11.1 * U.km / U.sec, 12.2 * U.km / U.sec, 7.3 * U.km / U.sec] =
      ![11.1 * U.km / U.sec, 232.2 * U.km / U.sec, 7.3 * U.km / U.sec] := by
    ext i
    fin_cases i
    · simp
    · simp only [Fin.mk_one, Pi.add_apply, Matrix.cons_val_one, Matrix.cons_val_zero]; ring
    · simp
  refine ⟨rfl, rfl, ?_, rfl, ?_⟩
  · show vnorm _ = vnorm _
    rw [hv]
  · show 0.4 * U.GeV / U.cm / U.cm / U.cm = 0.4 * U.GeV / U.cm ^ 3
    have := U.cm_pos
    field_simp

theorem default_eta (U : Units) (v : ℝ) : (SHM.default U).eta v = (standardHalo U).eta v := by
  obtain ⟨h1, h2, h3, h4, -⟩ := default_same U
  unfold SHM.eta SHM.etaSHM
  rw [h1, h2, h3, h4]

theorem standardHalo_facts (U : Units) : SHM.Reachable U (standardHalo U) ∧ (standardHalo U).Physical ∧
    (standardHalo U).vObs ≤ (standardHalo U).vEsc ∧ 1e-8 * (standardHalo U).v0 ≤ (standardHalo U).vObs ∧
    (standardHalo U).vEsc + (standardHalo U).vObs ≤ (SHM.default U).vMax ∧ (standardHalo U).vMax = (standardHalo U).vEsc + (standardHalo U).vObs := by
  have hk := kmsec_pos (U := U)
  obtain ⟨h1, h2⟩ := sun_bounds U
  have e1 : (standardHalo U).v0 = 220 * (U.km / U.sec) := mul_div_assoc _ _ _
  have e2 : (standardHalo U).vEsc = 544 * (U.km / U.sec) := mul_div_assoc _ _ _
  have e3 : (SHM.default U).vMax = (544 + 232.58) * (U.km / U.sec) := mul_div_assoc _ _ _
  refine ⟨⟨_, [], .vel _ _ _ _, rfl⟩, ⟨by rw [e1]; positivity, by rw [e2]; positivity⟩, ?_, ?_, ?_, rfl⟩
  · rw [e2]; linarith
  · rw [e1]; linarith
  · rw [e2, e3]; linarith

/-- C85 (halo). `Standard_Halo_Model()` has the density and the eta function of the standard halo with its parameters, and this function
is never negative. Only the upper end of its domain of speeds is rounded. -/
theorem C85_default_halo (U : Units) : (SHM.default U).density = (standardHalo U).density ∧
    (∀ v, (SHM.default U).eta v = (standardHalo U).eta v) ∧
    (∀ v, 0 ≤ v → 0 ≤ (SHM.default U).eta v) ∧
    (∀ v, 0 ≤ v → v ≤ (standardHalo U).vMax - 1e-8 * (standardHalo U).v0 →
      (SHM.default U).eta v = ∫ u in v..(standardHalo U).vMax, (standardHalo U).pdfSpeed u / u) ∧
    (standardHalo U).vMax ≤ (SHM.default U).vMax ∧ (SHM.default U).vMax ≤ (standardHalo U).vMax + 0.38 * U.km / U.sec := by
  obtain ⟨g1, g2, g3, g4, g5, g6⟩ := standardHalo_facts U
  have hk := kmsec_pos (U := U)
  obtain ⟨h1, h2⟩ := sun_bounds U
  have e2 : (standardHalo U).vEsc = 544 * (U.km / U.sec) := mul_div_assoc _ _ _
  have e3 : (SHM.default U).vMax = (544 + 232.58) * (U.km / U.sec) := mul_div_assoc _ _ _
  refine ⟨(default_same U).2.2.2.2, default_eta U, fun v hv => ?_, fun v hv hv' => ?_, g6.trans_le g5, ?_⟩
  · rw [default_eta]; exact (C17_antitone U _ g1 g2 g3 v v hv le_rfl).1
  · rw [default_eta]; exact C17_eta_partial U _ g1 g2 g3 (.inr g4) v hv hv'
  · rw [g6, e2, e3, mul_div_assoc]; linarith

/-! ## Limits without observed events -/

theorem cdfPoisson_none {s : ℝ} : cdfPoisson s 0 = Real.exp (-s) := by
  simp [cdfPoisson]

theorem limit_at_events {D : AnyDetector} {h : Distribution} {p : DMParticle} {c0 s : ℝ} (hT : ExactTools T) (hD : Typed D)
    (hp : Regular U p) (ht : D.base.targets = "Electrons") (hc0 : p.sigmaElectron = c0) (h0 : 0 < c0) (ha : D.base.analysis = .poisson)
    (hobs : D.base.observed = 0) (hbkg : D.base.background = 0)
    (hs : (D.toClass U T h).signalsTotal D.base p = .ok s) (hs0 : 0 ≤ s) :
    ∃ x, D.base.upperLimit U T (D.toClass U T h) p 0.95 = .ok (D.base, p, x) ∧ LimitAtEvents U T D h p (Real.log 20) x := by
  have hget : p.getInteractionParameter U D.base.targets = .ok c0 := by
    rw [ht, ← hc0]; rfl
  have hlin := hD.linear (U := U) hT.integral.homogeneous hT.linear h
  have hbg : probAtMost D.base.background D.base.observed ≠ 1 - 0.95 := by
    rw [hobs, hbkg, ← cdfPoisson_eq_probAtMost le_rfl, cdfPoisson_none]; norm_num
  obtain ⟨p', x, h1, h2⟩ := C30_poisson_partial (cert := 0.95) hD.1 hp (.inr ht) hlin hT.root hget h0 ha hs hs0 (by rw [hbkg]) (.inr hbg)
  obtain ⟨-, c, hc, hp'⟩ := C31_upper_limit_trace hD.1 hp.reachable h1
  rw [hget] at hc; cases hc
  have : p' = p := by
    rw [ht] at hp'
    have e : p.setInteractionParameter U c0 "Electrons" = .ok (p.setSigmaElectron c0) := rfl
    rw [e] at hp'; cases hp'
    rw [← hc0]; rfl
  subst this
  refine ⟨x, h1, ?_⟩
  have hexp : ∀ σ, 0 ≤ σ → ExpectsEvents U T D h p' σ (σ / c0 * s) ∧
      pValueAt U T (D.toClass U T h) D.base p' σ = .ok (Real.exp (-(σ / c0 * s))) := fun σ hσ => by
    have hsc : ScaledBy U "Electrons" (σ / c0) p' { p' with sigmaElectronRef := σ } := by
      have := scaledBy_withParam (U := U) hp.good (t := "Electrons") (c := σ) (by rw [← ht]; exact hget) (.inr rfl) h0 hσ
      simpa [withParam] using this
    have e1 : ExpectsEvents U T D h p' σ (σ / c0 * s) := by
      unfold ExpectsEvents
      rw [hlin.total D.base (σ / c0) p' _ rfl (by positivity) (by rw [ht]; exact hsc), hs]
      rfl
    refine ⟨e1, ?_⟩
    unfold pValueAt
    rw [ht]
    have e : p'.setInteractionParameter U σ "Electrons" = .ok { p' with sigmaElectronRef := σ } := rfl
    rw [e, Outcome.bind_ok, Detector.pValue_poisson (U := U) (T := T) ha (Detector.reachable_sound hD.1).fiducial.1 e1, hobs, hbkg,
      add_zero, cdfPoisson_none]
  have hlog : (1 : ℝ) - 0.95 = Real.exp (-Real.log 20) := by
    rw [Real.exp_neg, Real.exp_log (by norm_num)]; norm_num
  rcases h2 with ⟨h2, h3⟩ | ⟨h2, h3, h4⟩
  · refine .inl ⟨h2, fun σ g1 g2 => ?_⟩
    obtain ⟨y, g3, g4⟩ := h3 σ g1 g2
    obtain ⟨g5, g6⟩ := hexp σ ((Real.rpow_pos_of_pos (by norm_num) _).le.trans g1)
    rw [g6] at g3; cases g3
    exact ⟨_, g5, fun g => g4 (by rw [g, hlog])⟩
  · refine .inr ⟨h2, h3, fun σ hσ => ?_⟩
    obtain ⟨y, g3, g4, g5, g6⟩ := h4 σ hσ
    obtain ⟨g7, g8⟩ := hexp σ hσ
    rw [g8] at g3; cases g3
    rw [hlog, Real.exp_lt_exp] at g4 g5
    rw [hlog, Real.exp_eq_exp] at g6
    exact ⟨_, g7, fun g => by linarith [g4 g], fun g => by linarith [g5 g], fun g => by linarith [g6 g]⟩

/-! ## The detectors of the program -/

theorem default_eta_nonneg (U : Units) (v : ℝ) (hv : 0 ≤ v) : EtaNonneg (Distribution.ofSHM (SHM.default U)) v :=
  ⟨_, rfl, (C85_default_halo U).2.2.1 v hv⟩

theorem default_moving (U : Units) : 0 < (Distribution.ofSHM (SHM.default U)).vMax := by
  have hk := kmsec_pos (U := U)
  have e3 : (SHM.default U).vMax = (544 + 232.58) * (U.km / U.sec) := mul_div_assoc _ _ _
  show 0 < (SHM.default U).vMax
  rw [e3]; positivity

theorem default_density (U : Units) : 0 ≤ (Distribution.ofSHM (SHM.default U)).density := by
  have h1 := U.GeV_pos; have h2 := U.cm_pos
  show 0 ≤ 0.4 * U.GeV / U.cm / U.cm / U.cm
  positivity

/-- The events that a detector with the default halo expects are defined and not negative. -/
def Expects (U : Units) (T : Tools) (D : AnyDetector) : Prop :=
  ∀ p : DMParticle, 0 < p.mass → 0 ≤ p.sigmaElectron → p.useEtaFunction = true →
    ∃ s, (D.toClass U T (Distribution.ofSHM (SHM.default U))).signalsTotal D.base p = .ok s ∧ 0 ≤ s

theorem argon_built (hI : Installed S rows) (hF : PhysicalFiles S) (hP : NonnegInterpolation S.P) (hT : T.integrate.Exact)
    (hU : S.U.keV ≤ S.U.mElectron) (hM : 0 < (element S.U rows 18).averageMass) :
    ∃ d x a, argonExperiment S = .ok (d, x) ∧ Typed (.electronRecoil d x) ∧
      CountsEvents S ⟨100, 1, 0, 0⟩ "Argon toy experiment" "Electrons" d ∧ x.usingElectronThreshold = true ∧ x.neThreshold = 4 ∧
      x.atoms = [a] ∧ a.nucleus = element S.U rows 18 ∧ (∃ out, AnyDetector.printSummary S 0 (.electronRecoil d x) = .ok out) ∧
      Expects S.U T (.electronRecoil d x) := by
  obtain ⟨c', a, h1, hbuilt, h3, h4, h5⟩ := makeIonization_ok hI .start (.inr rfl) "Argon toy experiment" (100 * S.kg * S.M.year) "Electrons"
  have hmk := makeIonization_atom h1
  have h3 : a.nucleus = element S.U rows 18 := h3
  have hr0 := ionization_built h1
  have hbi : BuiltIonization S.U (Detector.make "Argon toy experiment" (100 * S.kg * S.M.year) "Electrons", IonizationDetector.initial [a] [1]) :=
    .inl ⟨_, _, _, _, _, _, _, _, _, h1⟩
  obtain ⟨d, x, hstep, hc, f1, f2, f3, f4, f5⟩ : ∃ d x, IonizationDetector.useElectronThreshold (Detector.make "Argon toy experiment"
      (100 * S.kg * S.M.year) "Electrons") (IonizationDetector.initial [a] [1]) 4 0 = .ok (d, x) ∧
      CountsEvents S ⟨100, 1, 0, 0⟩ "Argon toy experiment" "Electrons" d ∧ x.usingElectronThreshold = true ∧ x.neThreshold = 4 ∧
      x.neMax = 100 ∧ x.atoms = [a] ∧ x.fractions = [1] := by
    refine ⟨_, _, rfl, ⟨rfl, rfl, rfl, rfl, rfl, rfl, rfl, rfl, rfl⟩, rfl, rfl, rfl, rfl, rfl⟩
  have hb : argonExperiment S = .ok (d, x) := by
    unfold argonExperiment
    rw [h1, Outcome.bind_ok]
    exact hstep
  have hr := hr0.step (op := .useElectronThreshold 4 0) hstep
  obtain ⟨out, ho, -⟩ := C81_ionization_partial (S := S) (ops := [.useElectronThreshold 4 0]) hbi
    (by simp only [IonizationDetector.run, IonizationDetector.step, hstep]; rfl)
    (by simp [SensibleIonizationCall]) ⟨.energy, by simp [ionizationBinsOf]⟩ 0
  refine ⟨d, x, a, hb, ⟨hr.detector, hr.2⟩, hc, f1, f2, f4, h3, ⟨out, ho⟩, fun p hm hs hp => ?_⟩
  refine ionization_total hU hbuilt f4 f5 f1 f3 hc.analysis ?_ fun b hb' e he E hE => ?_
  · have h1 := S.M.gram_pos; have h2 := S.M.year_pos
    show 0 ≤ d.exposure
    rw [hc.exposure]; unfold Setup.kg; positivity
  · rw [f4] at hb'; obtain rfl := List.mem_singleton.1 hb'
    refine C68_electron_recoil_eta hT hm (default_moving S.U) ?_ (by rw [h3]; exact hM) hE hs (fun q E => ?_) (default_density S.U)
      (fun hn => absurd ⟨hp, rfl⟩ hn) (by show 0 ≤ d.flatEfficiency; rw [hc.efficiency]; exact zero_le_one)
      fun _ _ v hv _ => default_eta_nonneg S.U v hv
    · obtain ⟨B₀, b1, -, -, -, -, b2⟩ := atom_bindings hbuilt
      have := (b2 e he).2.1; have := S.U.eV_pos; linarith
    · obtain ⟨_, _, _, h⟩ := atom_shell_make hmk e he
      exact shell_formFactor_nonneg hP hF.response h q E

theorem silicon_built (hI : Installed S rows) (hF : PhysicalFiles S) (hP : NonnegInterpolation S.P) (hT : T.integrate.Exact) :
    ∃ d x, siliconExperiment S = .ok (d, x) ∧ Typed (.crystal d x) ∧
      CountsEvents S ⟨1 / 100, 1, 0, 0⟩ "Silicon toy experiment" "Electrons" d ∧ x.crystal.name = "Si" ∧ x.usingQThreshold = some true ∧
      x.qThreshold = some 2 ∧ (∃ out, AnyDetector.printSummary S 0 (.crystal d x) = .ok out) ∧ Expects S.U T (.crystal d x) := by
  obtain ⟨l, hl, hlen⟩ := hI.silicon
  obtain ⟨cr, h3, h4⟩ := (C57_construction (U := S.U) S.P (fun _ => l) "Si").1 (.inl rfl) hlen
  have hmk : CrystalDetector.make S.U S.P (fun _ => l) "Silicon toy experiment" (10 * S.M.gram * S.M.year) "Si" =
      .ok (Detector.make "Silicon toy experiment" (10 * S.M.gram * S.M.year) "Electrons",
        { crystal := cr, qThreshold := none, usingQThreshold := none, usingQBins := none }) := by
    unfold CrystalDetector.make
    rw [h3, Outcome.bind_ok]
  have hmake : S.makeCrystal "Silicon toy experiment" (10 * S.M.gram * S.M.year) "Si" =
      .ok (Detector.make "Silicon toy experiment" (10 * S.M.gram * S.M.year) "Electrons",
        { crystal := cr, qThreshold := none, usingQThreshold := none, usingQBins := none }) := by
    unfold Setup.makeCrystal
    rw [hl]
    exact hmk
  have hr0 := crystal_built hmake
  obtain ⟨d, x, hstep, hc, f1, f2, f3, f4⟩ : ∃ d x, CrystalDetector.useQThreshold (Detector.make "Silicon toy experiment"
      (10 * S.M.gram * S.M.year) "Electrons") { crystal := cr, qThreshold := none, usingQThreshold := none, usingQBins := none } 2 = (d, x) ∧
      CountsEvents S ⟨1 / 100, 1, 0, 0⟩ "Silicon toy experiment" "Electrons" d ∧ x.crystal = cr ∧ x.usingQThreshold = some true ∧
      x.qThreshold = some 2 ∧ (∀ p h, x.signalsTotal S.U T d p h = (do
        let r ← rTotalCrystal S.U T.integrate 2 p h x.crystal
        .ok (d.exposure * d.flatEfficiency * r))) := by
    refine ⟨_, _, rfl, ⟨rfl, rfl, ?_, rfl, rfl, rfl, rfl, rfl, rfl⟩, rfl, rfl, rfl, fun p h => ?_⟩
    · show 10 * S.M.gram * S.M.year = 1 / 100 * S.kg * S.M.year
      unfold Setup.kg; ring
    · unfold CrystalDetector.signalsTotal
      simp [Detector.make, readMember, Detector.initializePoisson, toInt32]
  have hb : siliconExperiment S = .ok (d, x) := by
    unfold siliconExperiment
    rw [hmake, Outcome.bind_ok]
    exact congrArg _ hstep
  have hrun : CrystalDetector.step (Detector.make "Silicon toy experiment" (10 * S.M.gram * S.M.year) "Electrons",
      { crystal := cr, qThreshold := none, usingQThreshold := none, usingQBins := none }) (.useQThreshold 2) = .ok (d, x) :=
    congrArg _ hstep
  have hr := hr0.step hrun
  obtain ⟨out, ho⟩ := C81_crystal_partial (S := S) (U := S.U) (ops := [.useQThreshold 2]) ⟨_, _, _, _, _, hmk⟩
    (by simp only [CrystalDetector.run, hrun]; rfl) (by simp [SensibleCrystalCall]) ⟨.energy, by simp [crystalBinsOf]⟩ ⟨2, by simp⟩ 0
  refine ⟨d, x, hb, ⟨hr.detector, hr.2⟩, hc, by rw [f1]; exact h4, f2, f3, ⟨out, ho⟩, fun p hm hs hp => ?_⟩
  have hbc : BuiltCrystal S.U x.crystal := by rw [f1]; exact ⟨_, _, _, h3⟩
  refine crystal_total (d := d) (Q := 2) hbc (by norm_num) (by norm_num) ?_ ?_ (fun E hE => ?_) (f4 p _)
  · have h1 := S.M.gram_pos; have h2 := S.M.year_pos
    rw [hc.exposure]; unfold Setup.kg; positivity
  · rw [hc.efficiency]; exact zero_le_one
  · exact C68_crystal hT hbc hm hE (default_density S.U)
      (fun q v => by rw [f1]; exact crystal_crossSection_nonneg hP (hF.crystal _ _ hl) h3 hs q E v) (fun hn => absurd ⟨hp, rfl⟩ hn)
      fun _ _ v hv _ => default_eta_nonneg S.U v hv

/-- C85 (electron recoils). With the data files of the project and exact numerical routines, `Electron_Recoil_Limit` ends normally. For a
particle of 100 MeV it prints the cross section at which the argon experiment with 100 kg years that counts at least four electrons, and
the silicon experiment with 10 gram years that counts at least two electron hole pairs, expect `log 20 ≈ 3` events: with none observed,
larger cross sections are excluded with 95% confidence. -/
theorem C85_electron_recoil_limit (hI : Installed S rows) (hF : PhysicalFiles S) (hP : NonnegInterpolation S.P) (hT : ExactTools T)
    (hU : S.U.keV ≤ S.U.mElectron) (hM : 0 < (element S.U rows 18).averageMass) :
    ∃ p d x a e y limitAr limitSi halo summaryAr summarySi, DMParticle.makeSI1 S.U (100 * S.U.MeV) = .ok p ∧
      -- the experiments
      CountsEvents S ⟨100, 1, 0, 0⟩ "Argon toy experiment" "Electrons" d ∧ x.usingElectronThreshold = true ∧ x.neThreshold = 4 ∧
      x.atoms = [a] ∧ a.nucleus = element S.U rows 18 ∧
      CountsEvents S ⟨1 / 100, 1, 0, 0⟩ "Silicon toy experiment" "Electrons" e ∧ y.crystal.name = "Si" ∧ y.usingQThreshold = some true ∧
      y.qThreshold = some 2 ∧
      -- the limits
      LimitAtEvents S.U T (.electronRecoil d x) (Distribution.ofSHM (SHM.default S.U)) p (Real.log 20) limitAr ∧
      LimitAtEvents S.U T (.crystal e y) (Distribution.ofSHM (SHM.default S.U)) p (Real.log 20) limitSi ∧
      -- what is printed
      electronRecoilLimit S T I3 = .ok (p.printSummary S.U 0 ++ halo ++ summaryAr ++ summarySi ++
        [.text "Argon experiment: \tsigma_e < ", .real (limitAr / S.U.cm ^ 2), .text " cm^2 (95%CL)", .text "\n",
         .text "Silicon experiment: \tsigma_e < ", .real (limitSi / S.U.cm ^ 2), .text " cm^2 (95%CL)", .text "\n"]) ∧
      (SHM.default S.U).printSummary S.U T.integrate I3 "Standard halo model (SHM)" 0 = .ok halo ∧
      AnyDetector.printSummary S 0 (.electronRecoil d x) = .ok summaryAr ∧ AnyDetector.printSummary S 0 (.crystal e y) = .ok summarySi := by
  have hm : 0 < 100 * S.U.MeV := by have := S.U.MeV_pos; positivity
  have hs : 0 < 1 / 10 ^ 40 * S.U.cm * S.U.cm := by have := S.U.cm_pos; positivity
  obtain ⟨p, hp, hreg, hm', hσ, hη⟩ : ∃ p, DMParticle.makeSI1 S.U (100 * S.U.MeV) = .ok p ∧ Regular S.U p ∧ 0 < p.mass ∧
      0 < p.sigmaElectron ∧ p.useEtaFunction = true := by
    obtain ⟨c, hc0, hc, h, -⟩ := makeSI_eq (U := S.U) hm hs.le
    refine ⟨_, h, .inl ⟨⟨_, _, [], makeSI_built hm h, by simp, trivial, rfl, rfl⟩, rfl⟩, hm, ?_, rfl⟩
    exact hs
  obtain ⟨d, x, a, a1, a2, a3, a4, a5, a6, a7, ⟨oa, a8⟩, a9⟩ := argon_built hI hF hP hT.integral hU hM
  obtain ⟨e, y, b1, b2, b3, b4, b5, b6, ⟨ob, b7⟩, b8⟩ := silicon_built hI hF hP hT.integral
  obtain ⟨s1, g1, g2⟩ := a9 p hm' hσ.le hη
  obtain ⟨s2, g3, g4⟩ := b8 p hm' hσ.le hη
  obtain ⟨l1, k1, k2⟩ := limit_at_events hT a2 hreg a3.targets rfl hσ a3.analysis (show d.observed = 0 by have := a3.observed; simpa using this) a3.background g1 g2
  obtain ⟨l2, k3, k4⟩ := limit_at_events hT b2 hreg b3.targets rfl hσ b3.analysis (show e.observed = 0 by have := b3.observed; simpa using this) b3.background g3 g4
  obtain ⟨oh, hh, -⟩ := (C82_halo (U := S.U) T.integrate ⟨T.integrate, fun _ _ _ _ _ => 0, fun _ _ _ => 0⟩ I3).1 (SHM.default S.U) "Standard halo model (SHM)"
  refine ⟨p, d, x, a, e, y, l1, l2, oh, oa, ob, hp, a3, a4, a5, a6, a7, b3, b4, b5, b6, k2, k4, ?_, hh, a8, b7⟩
  unfold electronRecoilLimit haloSummary
  rw [hp, Outcome.bind_ok, hh, Outcome.bind_ok, a1, Outcome.bind_ok]
  simp only [a8, Outcome.bind_ok, b1, b7]
  have k1 : d.upperLimit S.U T _ p 0.95 = _ := k1
  have k3 : e.upperLimit S.U T _ p 0.95 = _ := k3
  rw [k1, Outcome.bind_ok]
  simp only [k3, Outcome.bind_ok, sq]

/-! ## Nuclear recoils -/

theorem default_rate {I : Integrator} {p : DMParticle} {iso : Isotope} {E : ℝ} (hI : I.Exact) (hm : 0 < p.mass) (hM : 0 < iso.mass)
    (hp : p.useEtaFunction = true) (hr : Reaches (standardHalo U) p.mass iso.mass E) :
    dRdERIsotope U I E p (Distribution.ofSHM (SHM.default U)) iso =
      .ok (isotopeRate U p (Distribution.ofSHM (standardHalo U)) iso E) := by
  obtain ⟨g1, g2, g3, g4, g5, g6⟩ := standardHalo_facts U
  have hk := kmsec_pos (U := U)
  have hv : vMinimalNucleus E p.mass iso.mass ≤ (standardHalo U).vMax - 1e-8 * (standardHalo U).v0 := by
    unfold Reaches at hr
    have hμ : 0 < p.mass * iso.mass / (p.mass + iso.mass) := by positivity
    have hv0 := g2.1
    have hvE := g2.2
    unfold vMinimalNucleus reducedMass
    rw [g6]
    refine Real.sqrt_le_iff.2 ⟨by linarith, ?_⟩
    rw [le_div_iff₀ hM] at hr
    rw [div_div, div_le_iff₀ (by positivity)]
    linarith
  have h0 : 0 ≤ vMinimalNucleus E p.mass iso.mass := by unfold vMinimalNucleus; positivity
  have hv0 : 0 < (standardHalo U).v0 := g2.1
  rw [← dRdERIsotope_eq hI hm hM fun _ _ _ => ?_]
  · unfold dRdERIsotope
    have e1 : ¬ (Distribution.ofSHM (SHM.default U)).vMax < vMinimalNucleus E p.mass iso.mass := by
      show ¬ (SHM.default U).vMax < _
      rw [not_lt]; rw [g6] at hv; linarith
    have e2 : ¬ (Distribution.ofSHM (standardHalo U)).vMax < vMinimalNucleus E p.mass iso.mass := by
      show ¬ (standardHalo U).vMax < _
      rw [not_lt]; linarith
    have e3 : (Distribution.ofSHM (SHM.default U)).eta (vMinimalNucleus E p.mass iso.mass) =
        (Distribution.ofSHM (standardHalo U)).eta (vMinimalNucleus E p.mass iso.mass) :=
      congrArg Outcome.ok (default_eta U _)
    have e4 : (Distribution.ofSHM (SHM.default U)).density = (Distribution.ofSHM (standardHalo U)).density := (default_same U).2.2.2.2
    simp only [e1, e2, if_false, e3, e4]
    rw [if_pos ⟨hp, rfl⟩, if_pos ⟨hp, rfl⟩]
  · exact congrArg Outcome.ok (C17_eta_partial U _ g1 g2 g3 (.inr g4) _ h0 hv)

theorem default_nucleus_rate {I : Integrator} {p : DMParticle} {n : Nucleus} {E : ℝ} (hI : I.Exact) (hm : 0 < p.mass)
    (hM : ∀ iso ∈ n.isotopes, 0 < iso.mass) (hp : p.useEtaFunction = true)
    (hr : ∀ iso ∈ n.isotopes, Reaches (standardHalo U) p.mass iso.mass E) :
    dRdERNucleus U I E p (Distribution.ofSHM (SHM.default U)) n =
      .ok (nucleusRate U p (Distribution.ofSHM (standardHalo U)) n E) := by
  unfold dRdERNucleus nucleusRate
  exact sumOver_ok fun iso hiso => by rw [default_rate hI hm (hM iso hiso) hp (hr iso hiso), Outcome.bind_ok]

theorem setSigmaProton_twice {p : DMParticle} {σ : ℝ} (h1 : 0 < p.prefactor) (h2 : 0 < p.mass) (hσ : 0 ≤ σ) (hf : p.fixedRelation = true)
    (h3 : p.fpRel ≠ 0) (h4 : p.fnRel = p.fpRel) : ∃ q, p.setSigmaProton U σ = .ok q ∧ q.setSigmaProton U σ = .ok q ∧ q.mass = p.mass ∧
      q.interaction = p.interaction ∧ q.fp = q.fn ∧ q.sigmaProton U = σ ∧ q.lowMass = p.lowMass ∧
      q.fractionalDensity = p.fractionalDensity ∧ q.useEtaFunction = p.useEtaFunction := by
  refine ⟨{ p with fp := cpl U p σ, fn := p.fnRel / p.fpRel * cpl U p σ }, setSigmaProton_fixed h1 h2 hσ hf h3, ?_, rfl, rfl, ?_, ?_, rfl, rfl, rfl⟩
  · rw [setSigmaProton_fixed (p := { p with fp := cpl U p σ, fn := p.fnRel / p.fpRel * cpl U p σ }) h1 h2 hσ hf h3]
    rfl
  · simp [h4, div_self h3]
  · exact cpl_sq h1 h2 hσ

/-- C85 (nuclear recoils). `Nuclear_Recoil_Spectrum` ends normally and prints the rates of recoils of 1 keV per kg, year and keV that a
xenon target has in the standard halo, for particles of 10 GeV with the same couplings to protons and neutrons that scatter with protons
with 10⁻⁴⁰ cm², by spin-independent and by spin-dependent interactions. -/
theorem C85_nuclear_recoil_spectrum (hN : S.files.nuclear = some rows) (hW : WellFormed rows) (hI : T.integrate.Exact)
    (hM : ∀ iso ∈ (element S.U rows 54).isotopes, 0 < iso.mass ∧ Reaches (standardHalo S.U) (10 * S.U.GeV) iso.mass S.U.keV) :
    ∃ si sd halo,
      (si.mass = 10 * S.U.GeV ∧ si.interaction = .SI .contact (S.U.aEM * S.U.mElectron) 0 ∧ si.fp = si.fn ∧
        si.sigmaProton S.U = 1 / 10 ^ 40 * S.U.cm ^ 2 ∧ si.lowMass = false ∧ si.fractionalDensity = 1) ∧
      (sd.mass = 10 * S.U.GeV ∧ sd.interaction = .SD ∧ sd.fp = sd.fn ∧
        sd.sigmaProton S.U = 1 / 10 ^ 40 * S.U.cm ^ 2 ∧ sd.lowMass = false ∧ sd.fractionalDensity = 1) ∧
      (SHM.default S.U).printSummary S.U T.integrate I3 "Standard halo model (SHM)" 0 = .ok halo ∧
      nuclearRecoilSpectrum S T I3 = .ok (si.printSummary S.U 0 ++ sd.printSummary S.U 0 ++ halo ++
        (element S.U rows 54).printSummary S.U 0 ++
        [.text "SI-interactions: \tdR/dER (1 keV) = ",
         .real (nucleusRate S.U si (Distribution.ofSHM (standardHalo S.U)) (element S.U rows 54) S.U.keV * (S.kg * S.M.year * S.U.keV)),
         .text " events / kg / year / keV", .text "\n",
         .text "SD-interactions: \tdR/dER (1 keV) = ",
         .real (nucleusRate S.U sd (Distribution.ofSHM (standardHalo S.U)) (element S.U rows 54) S.U.keV * (S.kg * S.M.year * S.U.keV)),
         .text " events / kg / year / keV", .text "\n"]) := by
  have hm : 0 < 10 * S.U.GeV := by have := S.U.GeV_pos; positivity
  have hs : 0 < 1 / 10 ^ 40 * S.U.cm * S.U.cm := by have := S.U.cm_pos; positivity
  have e : 1 / 10 ^ 40 * S.U.cm * S.U.cm = 1 / 10 ^ 40 * S.U.cm ^ 2 := by ring
  obtain ⟨si, h1, h2, h3, h4, h5, h6, h7, h8, h9⟩ := setSigmaProton_twice (U := S.U)
    (p := DMParticle.standard S.U (10 * S.U.GeV) 1 (.SI .contact (S.U.aEM * S.U.mElectron) 0)) (by simp [DMParticle.standard]) hm hs.le rfl
    (by simp [DMParticle.standard]) rfl
  obtain ⟨sd, k1, k2, k3, k4, k5, k6, k7, k8, k9⟩ := setSigmaProton_twice (U := S.U)
    (p := DMParticle.standard S.U (10 * S.U.GeV) 3 .SD) (by simp [DMParticle.standard]) hm hs.le rfl (by simp [DMParticle.standard]) rfl
  obtain ⟨oh, hh, -⟩ := (C82_halo (U := S.U) T.integrate ⟨T.integrate, fun _ _ _ _ _ => 0, fun _ _ _ => 0⟩ I3).1 (SHM.default S.U) "Standard halo model (SHM)"
  obtain ⟨c', hx⟩ := (C51_get_nucleus_by_name (U := S.U) hW .start "Xe").1 54 (by norm_num) (by norm_num) (by decide)
  have r1 := default_nucleus_rate (U := S.U) (p := si) hI (by rw [h3]; exact hm) (fun iso hiso => (hM iso hiso).1) h9
    (fun iso hiso => by rw [h3]; exact (hM iso hiso).2)
  have r2 := default_nucleus_rate (U := S.U) (p := sd) hI (by rw [k3]; exact hm) (fun iso hiso => (hM iso hiso).1) k9
    (fun iso hiso => by rw [k3]; exact (hM iso hiso).2)
  refine ⟨si, sd, oh, ⟨h3, h4, h5, h6.trans e, h7, h8⟩, ⟨k3, k4, k5, k6.trans e, k7, k8⟩, hh, ?_⟩
  have u : ∀ r : ℝ, r / (1 / S.kg / S.M.year / S.U.keV) = r * (S.kg * S.M.year * S.U.keV) := fun r => by
    rw [div_div, div_div, div_div_eq_mul_div, div_one, mul_assoc]
  unfold nuclearRecoilSpectrum haloSummary DMParticle.makeSI1 DMParticle.makeSI DMParticle.makeSD1 DMParticle.makeSD
  rw [h1, Outcome.bind_ok, h2, Outcome.bind_ok, k1, Outcome.bind_ok, k2, Outcome.bind_ok, hh, Outcome.bind_ok, hN, hx, Outcome.bind_ok]
  simp only [r1, r2, Outcome.bind_ok, u]

/-! ## The hypotheses can be met -/

theorem sampleSetup_argon : 0 < (element sampleSetup.U shippedTable 18).averageMass := by
  refine shipped_averageMass _ (by norm_num) ?_
  rw [(C60_abundances_partial (U := sampleSetup.U)).2 18 (by norm_num) (by norm_num) (by simp)]; norm_num

theorem sampleSetup_xenon : ∀ iso ∈ (element sampleSetup.U shippedTable 54).isotopes, 0 < iso.mass ∧
    Reaches (standardHalo sampleSetup.U) (10 * sampleSetup.U.GeV) iso.mass sampleSetup.U.keV := by
  intro iso hi
  obtain ⟨r, hr, rfl⟩ := List.mem_map.1 hi
  obtain ⟨hr1, hr2⟩ := List.mem_filter.1 hr
  obtain ⟨raw, hraw, rfl⟩ := List.mem_map.1 hr1
  have hA : ∀ r ∈ shippedRows, r.Z = 54 → 2 ≤ r.A ∧ r.A ≤ 300 := by decide +kernel
  obtain ⟨h1, h2⟩ := hA raw hraw (of_decide_eq_true hr2)
  have hmass : (isotopeOf sampleSetup.U raw.toRow).mass = raw.A := by
    have : raw.A ≠ 1 := by omega
    have e : sampleSetup.U.mNucleon = 1 := rfl
    simp [isotopeOf, RawRow.toRow, this, e]
  have h1 : (2 : ℝ) ≤ raw.A := by exact_mod_cast h1
  have h2 : (raw.A : ℝ) ≤ 300 := by exact_mod_cast h2
  rw [hmass]
  refine ⟨by linarith, ?_⟩
  unfold Reaches
  obtain ⟨hs, -⟩ := sun_bounds sampleSetup.U
  have e1 : sampleSetup.U.km / sampleSetup.U.sec = 5 / 1000000 := by norm_num [sampleSetup, Units.sample, Units.km]
  have e2 : sampleSetup.U.keV = 1 / 1000000 := by norm_num [sampleSetup, Units.sample, Units.keV]
  have e3 : sampleSetup.U.GeV = 1 := by norm_num [sampleSetup, Units.sample, Units.GeV]
  have e4 : (standardHalo sampleSetup.U).v0 = 220 * (sampleSetup.U.km / sampleSetup.U.sec) := mul_div_assoc _ _ _
  have e5 : (standardHalo sampleSetup.U).vEsc = 544 * (sampleSetup.U.km / sampleSetup.U.sec) := mul_div_assoc _ _ _
  rw [e1] at hs e4 e5
  have hv : (15 / 1000000 : ℝ) ≤ ((standardHalo sampleSetup.U).vEsc + (standardHalo sampleSetup.U).vObs - 1e-8 * (standardHalo sampleSetup.U).v0) ^ 2 := by
    have h : (3.875e-3 : ℝ) ≤ (standardHalo sampleSetup.U).vEsc + (standardHalo sampleSetup.U).vObs - 1e-8 * (standardHalo sampleSetup.U).v0 := by
      rw [e4, e5]; norm_num at hs ⊢; linarith
    calc (15 / 1000000 : ℝ) ≤ 3.875e-3 ^ 2 := by norm_num
      _ ≤ _ := pow_le_pow_left₀ (by norm_num) h 2
  generalize (standardHalo sampleSetup.U).vEsc + (standardHalo sampleSetup.U).vObs - 1e-8 * (standardHalo sampleSetup.U).v0 = v at hv
  generalize (raw.A : ℝ) = A at h1 h2
  rw [e2, e3, mul_one]
  have hA : (0 : ℝ) < A := by linarith
  have e6 : 2 * (10 * A / (10 + A)) ^ 2 * v ^ 2 / A = 200 * A * v ^ 2 / (10 + A) ^ 2 := by
    field_simp; ring
  rw [e6, le_div_iff₀ (by positivity)]
  have : 200 * A * (15 / 1000000) ≤ 200 * A * v ^ 2 := mul_le_mul_of_nonneg_left hv (by positivity)
  nlinarith

/-- Non-vacuity of `C85_electron_recoil_limit`, for all exact tools. -/
example (hT : ExactTools T) : ∃ out, electronRecoilLimit sampleSetup T I3 = .ok out := by
  obtain ⟨_, _, _, _, _, _, _, _, _, _, _, -, -, -, -, -, -, -, -, -, -, -, -, h, -⟩ := C85_electron_recoil_limit (I3 := I3)
    sampleSetup_installed sampleSetup_physical sampleSetup_nonneg hT sampleSetup_keV sampleSetup_argon
  exact ⟨_, h⟩

/-- Non-vacuity of `C85_nuclear_recoil_spectrum`, for every exact integration. -/
example (hT : T.integrate.Exact) : ∃ out, nuclearRecoilSpectrum sampleSetup T I3 = .ok out := by
  obtain ⟨_, _, _, -, -, -, h⟩ := C85_nuclear_recoil_spectrum (I3 := I3) sampleSetup_installed.nuclear sampleSetup_installed.complete hT
    sampleSetup_xenon
  exact ⟨_, h⟩

end Obscura
