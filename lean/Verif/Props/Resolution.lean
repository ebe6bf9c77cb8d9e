import Verif.Lemmas.Resolution

/-!
# C119: an energy resolution moves events, but creates none and loses almost none
-/

namespace Obscura

open Spec NuclearDetector DMParticle MeasureTheory

variable {U : Units} {I : Integrator} {T : Tools} {p : DMParticle} {h : Distribution} {nd : NuclearDetector} {d : Detector}

theorem perfect_rate {I : Integrator} (htab : nd.usingTables = false) (E ER : ℝ) :
    (nd.setResolution 0).dRdE U I d ER p h = nd.theoryRate U I d E ER p h := by
  unfold NuclearDetector.dRdE
  rw [if_pos (by have := U.eV_pos; show (0 : ℝ) < _; positivity)]
  unfold theoryRate efficiency
  simp [setResolution, htab]

theorem smeared_rate (hI : I.Exact) (hres : 1 / 10 ^ 6 * U.eV ≤ nd.resolution) (htab : nd.usingTables = false) (E : ℝ) :
    (nd.dRdE U I d E p h).valueOr0 = smeared nd.resolution (max (d.energyThreshold - 3 * nd.resolution) (2 * nd.resolution))
      (fun ER => ((nd.setResolution 0).dRdE U I d ER p h).valueOr0) E := by
  unfold NuclearDetector.dRdE
  rw [if_neg (not_lt.2 hres)]
  dsimp only
  rw [hI, max_assoc]
  unfold smeared
  refine intervalIntegral.integral_congr fun ER _ => ?_
  dsimp only
  rw [← perfect_rate htab]
  rfl

/-- C119 (recoils). Let `σ` be the energy resolution of a detector without efficiency tables. In every window of observed energies the detector sees at
most the recoils that the same detector with a perfect resolution (`Set_Resolution(0)`) sees above both three standard deviations below the threshold and
`2σ`, and up to `6σ` above the window. It sees all but a share of `exp (-18)` of those which lie, together with all energies within `6σ`, in the window. -/
theorem C119_recoils (hI : I.Exact) (hres : 1 / 10 ^ 6 * U.eV ≤ nd.resolution) (htab : nd.usingTables = false) {a b : ℝ} (ha : 0 ≤ a) (hab : a ≤ b)
    (hthr : d.energyThreshold ≤ a + 9 * nd.resolution) (h0 : ∀ E, 0 < E → ∃ r, 0 ≤ r ∧ (nd.setResolution 0).dRdE U I d E p h = .ok r)
    (hint : ∀ x y, 0 < x → x ≤ y → IntervalIntegrable (fun E => ((nd.setResolution 0).dRdE U I d E p h).valueOr0) volume x y) :
    (∫ E in a..b, (nd.dRdE U I d E p h).valueOr0) ≤
      ∫ E in (max (d.energyThreshold - 3 * nd.resolution) (2 * nd.resolution))..(b + 6 * nd.resolution), ((nd.setResolution 0).dRdE U I d E p h).valueOr0 ∧
    ∀ c e, d.energyThreshold - 3 * nd.resolution ≤ c → 2 * nd.resolution ≤ c → c ≤ e → a ≤ c - 6 * nd.resolution → e + 6 * nd.resolution ≤ b →
      (1 - Real.exp (-18)) * (∫ E in c..e, ((nd.setResolution 0).dRdE U I d E p h).valueOr0) ≤ ∫ E in a..b, (nd.dRdE U I d E p h).valueOr0 := by
  have hσ : 0 < nd.resolution := lt_of_lt_of_le (by have := U.eV_pos; positivity) hres
  have hL0 : 0 < max (d.energyThreshold - 3 * nd.resolution) (2 * nd.resolution) := lt_of_lt_of_le (by positivity) (le_max_right _ _)
  have hL : max (d.energyThreshold - 3 * nd.resolution) (2 * nd.resolution) ≤ a + 6 * nd.resolution := max_le (by linarith) (by linarith)
  simp only [smeared_rate hI hres htab]
  have := smeared_bounds hσ hab hL (fun x hx => by
    obtain ⟨r, hr, e⟩ := h0 x (hL0.trans hx)
    show 0 ≤ ((nd.setResolution 0).dRdE U I d x p h).valueOr0
    rw [e]; exact hr) (hint _ _ hL0 (hL.trans (by linarith)))
  exact ⟨this.1, fun c e h1 h2 => this.2.1 c e (max_le h1 h2)⟩

/-- C119 (event numbers). The same for the total number of events of a detector with energy bins: the finite resolution does not create events, and loses
only a share of `exp (-18)` of the events at a distance of `6σ` from both ends of the window. -/
theorem C119_events (hI : T.integrate.Exact) (hres : 1 / 10 ^ 6 * U.eV ≤ nd.resolution) (htab : nd.usingTables = false)
    (hb : BaseReachable d) (hd : d.analysis = .binnedPoisson) (hn : d.bins + 1 < 2 ^ 32) (hn0 : 0 < d.bins) (he : ∀ i < d.bins, d.binEfficiencies.getD i 0 = 1)
    (hex : 0 ≤ d.exposure) (hE : 0 ≤ d.energyThreshold) (h0 : ∀ E, 0 < E → ∃ r, 0 ≤ r ∧ (nd.setResolution 0).dRdE U T.integrate d E p h = .ok r)
    (hint : ∀ x y, 0 < x → x ≤ y → IntervalIntegrable (fun E => ((nd.setResolution 0).dRdE U T.integrate d E p h).valueOr0) volume x y) :
    ∃ s, (nd.toClass U T h).signalsTotal d p = .ok s ∧ s ≤ d.exposure *
      (∫ E in (max (d.energyThreshold - 3 * nd.resolution) (2 * nd.resolution))..(d.energyMax + 6 * nd.resolution),
        ((nd.setResolution 0).dRdE U T.integrate d E p h).valueOr0) ∧
    ∀ c e, 2 * nd.resolution ≤ c → c ≤ e → d.energyThreshold ≤ c - 6 * nd.resolution → e + 6 * nd.resolution ≤ d.energyMax →
      (1 - Real.exp (-18)) * (d.exposure * ∫ E in c..e, ((nd.setResolution 0).dRdE U T.integrate d E p h).valueOr0) ≤ s := by
  have hσ : 0 < nd.resolution := lt_of_lt_of_le (by have := U.eV_pos; positivity) hres
  obtain ⟨-, -, f3, -⟩ := (Detector.baseReachable_inv hb).energies hd
  have hL0 : 0 < max (d.energyThreshold - 3 * nd.resolution) (2 * nd.resolution) := lt_of_lt_of_le (by positivity) (le_max_right _ _)
  have hL : max (d.energyThreshold - 3 * nd.resolution) (2 * nd.resolution) ≤ d.energyThreshold + 6 * nd.resolution := max_le (by linarith) (by linarith)
  have hint' : IntervalIntegrable (fun E => (nd.dRdE U T.integrate d E p h).valueOr0) volume d.energyThreshold d.energyMax := by
    simp only [smeared_rate hI hres htab]
    exact (smeared_bounds hσ f3 hL (fun x hx => by
      obtain ⟨r, hr, e⟩ := h0 x (hL0.trans hx)
      show 0 ≤ ((nd.setResolution 0).dRdE U T.integrate d x p h).valueOr0
      rw [e]; exact hr) (hint _ _ hL0 (hL.trans (by linarith)))).2.2
  obtain ⟨ss, e1, e2⟩ := C37_partition (p := p) (C := nd.toClass U T h) hb hd hI hn hn0 he hint'
  have e3 : (nd.toClass U T h).signalsTotal d p = .ok ss.sum := C37_total_is_sum hd e1
  obtain ⟨k1, k2⟩ := C119_recoils (U := U) (a := d.energyThreshold) (b := d.energyMax) hI hres htab hE f3 (by linarith) h0 hint
  refine ⟨_, e3, ?_, fun c e h1 h2 h3 h4 => ?_⟩
  · rw [e2]
    exact mul_le_mul_of_nonneg_left k1 hex
  · rw [e2, mul_left_comm]
    exact mul_le_mul_of_nonneg_left (k2 c e (by linarith) h1 h2 h3 h4) hex

/-- C119 (efficiencies). Imported efficiencies between zero and one only remove events: at every observed energy, with and without a finite resolution, the
rate is not negative and at most the rate of the detector without tables. So the upper bound on the recoils above holds with efficiency tables too. -/
theorem C119_efficiencies (hI : I.Exact) (hlen : nd.nuclei.length ≤ nd.fractions.length) (hfr : ∀ x ∈ nd.fractions, 0 ≤ x) (heff : 0 ≤ d.flatEfficiency)
    (hab : ∀ iso ∈ nd.isotopes, 0 ≤ iso.abundance) (hiso : ∀ iso ∈ nd.isotopes, ∀ E, 0 < E → ∃ r, 0 ≤ r ∧ dRdERIsotope U I E p h iso = .ok r)
    (hint : ∀ iso ∈ nd.isotopes, ∀ x y, 0 < x → x ≤ y → IntervalIntegrable (fun E => (dRdERIsotope U I E p h iso).valueOr0) volume x y)
    (htab : ∀ t ∈ nd.efficiencies, ∀ E, 0 ≤ t E ∧ t E ≤ 1) {E : ℝ} (hE : 0 < E) (hthr : d.energyThreshold ≤ E + 9 * nd.resolution) :
    ∃ r r', nd.dRdE U I d E p h = .ok r ∧ ({ nd with usingTables := false } : NuclearDetector).dRdE U I d E p h = .ok r' ∧ 0 ≤ r ∧ r ≤ r' := by
  have hε : ∀ i, 0 ≤ efficiencyOf nd i E ∧ efficiencyOf nd i E ≤ 1 := fun i => by
    have : ∀ j, 0 ≤ nd.efficiencies.getD j (fun _ => 1) E ∧ nd.efficiencies.getD j (fun _ => 1) E ≤ 1 := fun j => by
      rw [List.getD_eq_getElem?_getD]
      cases hx : nd.efficiencies[j]? with
      | none => exact ⟨zero_le_one, le_rfl⟩
      | some t => exact htab t (List.mem_of_getElem? hx) E
    unfold efficiencyOf
    split_ifs
    · exact this 0
    · exact this i
    · exact ⟨zero_le_one, le_rfl⟩
  set g : ℝ → Isotope → ℝ := fun ER iso => (dRdERIsotope U I ER p h iso).valueOr0 with hg
  have hok : ∀ ER, 0 < ER → ∀ iso ∈ nd.isotopes, dRdERIsotope U I ER p h iso = .ok (g ER iso) ∧ 0 ≤ g ER iso := fun ER hER iso hx => by
    obtain ⟨r, h1, h2⟩ := hiso iso hx ER hER
    simp only [hg, h2]
    exact ⟨rfl, h1⟩
  set N : (Fin nd.nuclei.length) → ℝ → ℝ := fun i ER => (nd.nuclei[i].isotopes.map fun iso => iso.abundance * g ER iso).sum with hN
  have hmem : ∀ (i : Fin nd.nuclei.length), ∀ iso ∈ nd.nuclei[i].isotopes, iso ∈ nd.isotopes := fun i iso hx =>
    Obscura.NuclearDetector.mem_isotopes (List.getElem_mem _) hx
  have hN0 : ∀ i ER, 0 < ER → 0 ≤ N i ER := fun i ER hER => List.sum_nonneg fun y hy => by
    obtain ⟨iso, h1, rfl⟩ := List.mem_map.1 hy
    exact mul_nonneg (hab iso (hmem i iso h1)) (hok ER hER iso (hmem i iso h1)).2
  have t1 : ∀ ER, 0 < ER → nd.theoryRate U I d E ER p h = .ok (∑ i : Fin nd.nuclei.length, efficiencyOf nd i E * d.flatEfficiency * nd.fractions.getD i 0 * N i ER) := fun ER hER =>
    theoryRate_eq_of hlen fun iso hx => (hok ER hER iso hx).1
  have t2 : ∀ ER, 0 < ER → ({ nd with usingTables := false } : NuclearDetector).theoryRate U I d E ER p h =
      .ok (∑ i : Fin nd.nuclei.length, 1 * d.flatEfficiency * nd.fractions.getD i 0 * N i ER) := fun ER hER => by
    have := theoryRate_eq_of (nd := ({ nd with usingTables := false } : NuclearDetector)) (U := U) (I := I) (p := p) (h := h) (d := d) (E := E) (ER := ER) (g := g ER) hlen
      fun iso hx => (hok ER hER iso hx).1
    rw [this]
    simp [efficiencyOf, hN]
  have hle : ∀ ER, 0 < ER → (0 ≤ ∑ i : Fin nd.nuclei.length, efficiencyOf nd i E * d.flatEfficiency * nd.fractions.getD i 0 * N i ER) ∧
      (∑ i : Fin nd.nuclei.length, efficiencyOf nd i E * d.flatEfficiency * nd.fractions.getD i 0 * N i ER) ≤ ∑ i : Fin nd.nuclei.length, 1 * d.flatEfficiency * nd.fractions.getD i 0 * N i ER := fun ER hER => by
    have hf := fun i : ℕ => Obscura.getD_nonneg hfr i
    refine ⟨Finset.sum_nonneg fun i _ => mul_nonneg (mul_nonneg (mul_nonneg (hε i).1 heff) (hf i)) (hN0 i ER hER), Finset.sum_le_sum fun i _ => ?_⟩
    have := hN0 i ER hER
    have := hf i
    have := (hε i).2
    gcongr
  by_cases hres : nd.resolution < 1 / 10 ^ 6 * U.eV
  · unfold NuclearDetector.dRdE
    rw [if_pos hres, if_pos hres]
    exact ⟨_, _, t1 E hE, t2 E hE, hle E hE⟩
  · unfold NuclearDetector.dRdE
    rw [if_neg hres, if_neg hres]
    dsimp only
    rw [hI, hI]
    have hσ : 0 < nd.resolution := lt_of_lt_of_le (by have := U.eV_pos; positivity) (not_lt.1 hres)
    set lo := max (max (E - 6 * nd.resolution) (d.energyThreshold - 3 * nd.resolution)) (2 * nd.resolution) with hlo
    have hlo0 : 0 < lo := lt_of_lt_of_le (by positivity) (le_max_right _ _)
    have hle' : lo ≤ E + 6 * nd.resolution := max_le (max_le (by linarith) (by linarith)) (by linarith)
    have hNi : ∀ i, IntervalIntegrable (N i) volume lo (E + 6 * nd.resolution) := fun i => by
      have : ∀ l : List Isotope, (∀ iso ∈ l, iso ∈ nd.isotopes) →
          IntervalIntegrable (fun ER => (l.map fun iso => iso.abundance * g ER iso).sum) volume lo (E + 6 * nd.resolution) := by
        intro l
        induction l with
        | nil => intro _; simp
        | cons iso l ih =>
          intro hl
          simp only [List.map_cons, List.sum_cons]
          exact ((hint iso (hl iso (by simp)) _ _ hlo0 hle').const_mul _).add (ih fun z hz => hl z (by simp [hz]))
      exact this _ (hmem i)
    have hint2 : ∀ w : Fin nd.nuclei.length → ℝ, IntervalIntegrable (fun ER => pdfGauss E ER nd.resolution * ∑ i, w i * N i ER) volume lo (E + 6 * nd.resolution) := fun w => by
      refine IntervalIntegrable.continuousOn_mul ?_ (by unfold pdfGauss; fun_prop)
      have := IntervalIntegrable.sum Finset.univ (f := fun i ER => w i * N i ER) (μ := volume) (a := lo) (b := E + 6 * nd.resolution) fun i _ => (hNi i).const_mul _
      refine this.congr fun ER _ => ?_
      simp
    have c1 : ∫ ER in lo..(E + 6 * nd.resolution), pdfGauss E ER nd.resolution * (nd.theoryRate U I d E ER p h).valueOr0 =
        ∫ ER in lo..(E + 6 * nd.resolution), pdfGauss E ER nd.resolution * ∑ i : Fin nd.nuclei.length, efficiencyOf nd i E * d.flatEfficiency * nd.fractions.getD i 0 * N i ER :=
      intervalIntegral.integral_congr fun ER hER => by
        rw [Set.uIcc_of_le hle'] at hER
        rw [t1 ER (hlo0.trans_le hER.1)]
        rfl
    have c2 : ∫ ER in lo..(E + 6 * nd.resolution), pdfGauss E ER nd.resolution * (({ nd with usingTables := false } : NuclearDetector).theoryRate U I d E ER p h).valueOr0 =
        ∫ ER in lo..(E + 6 * nd.resolution), pdfGauss E ER nd.resolution * ∑ i : Fin nd.nuclei.length, 1 * d.flatEfficiency * nd.fractions.getD i 0 * N i ER :=
      intervalIntegral.integral_congr fun ER hER => by
        rw [Set.uIcc_of_le hle'] at hER
        rw [t2 ER (hlo0.trans_le hER.1)]
        rfl
    refine ⟨_, _, rfl, rfl, ?_, ?_⟩
    · rw [c1]
      exact intervalIntegral.integral_nonneg hle' fun ER hER => mul_nonneg (pdfGauss_nonneg hσ _ _) (hle ER (hlo0.trans_le hER.1)).1
    · rw [c1, c2]
      exact intervalIntegral.integral_mono_on hle' (hint2 _) (hint2 _) fun ER hER =>
        mul_le_mul_of_nonneg_left (hle ER (hlo0.trans_le hER.1)).2 (pdfGauss_nonneg hσ _ _)

/-- C119 (falling spectra). A spectrum that falls with the energy, as it does by C96 for particles that see nuclei as points, meets the conditions on
the spectrum. -/
theorem C119_falling (hf : FallingSpectrum fun E => (nd.setResolution 0).dRdE U I d E p h) :
    (∀ E, 0 < E → ∃ r, 0 ≤ r ∧ (nd.setResolution 0).dRdE U I d E p h = .ok r) ∧
    ∀ x y, 0 < x → x ≤ y → IntervalIntegrable (fun E => ((nd.setResolution 0).dRdE U I d E p h).valueOr0) volume x y := by
  refine ⟨fun E hE => ?_, fun x y hx hxy => AntitoneOn.intervalIntegrable fun u hu w _ huw => ?_⟩
  · obtain ⟨r, _, e, -, h1, h2⟩ := hf E E hE le_rfl
    exact ⟨r, h1.trans h2, e⟩
  · rw [Set.uIcc_of_le hxy] at hu
    exact (FallingSpectrum.value hf (hx.trans_le hu.1)).2.2 w huw

/-- Non-vacuity: hydrogen in a standard halo, with a resolution of 1, a threshold of 2 and half of the recoils detected. -/
example (hI : I.Exact) : ∃ (nd : NuclearDetector) (d : Detector) (p : DMParticle), nd.usingTables = true ∧ nd.resolution = 1 ∧ Reachable U p ∧ d.energyThreshold = 2 ∧
    ∀ E, 2 ≤ E → ∃ r r', nd.dRdE U I d E p (Distribution.ofSHM SHM.sample) = .ok r ∧
      ({ nd with usingTables := false } : NuclearDetector).dRdE U I d E p (Distribution.ofSHM SHM.sample) = .ok r' ∧ 0 ≤ r ∧ r ≤ r' := by
  obtain ⟨f, -, hf, hp, hfs⟩ := makeSI_eq (U := U) (m := 1) (s := 1) one_pos zero_le_one
  set p : DMParticle := { standard U 1 1 (.SI .contact (U.aEM * U.mElectron) 0) with fp := f, fn := f, lowMass := true } with hpd
  have hval : ∀ op ∈ [DMParticle.Op.setLowMassMode true], ValidOp op := fun op ho => by
    simp only [List.mem_cons, List.not_mem_nil, or_false] at ho
    rcases ho with rfl; trivial
  have hreach : Reachable U p := ⟨_, [.setLowMassMode true], .inl ⟨1, 1, one_pos, hp⟩, hval, rfl⟩
  have hs : SHM.sample.Physical ∧ SHM.sample.vObs ≤ SHM.sample.vEsc ∧ 0 ≤ SHM.sample.density := by
    refine ⟨⟨?_, ?_⟩, ?_, ?_⟩ <;> norm_num [SHM.sample, SHM.makeSpeed, SHM.normalize]
  obtain ⟨g1, g2⟩ := C96_standard_halo (U := Units.sample) SHM.sample_reachable hs.1 hs.2.1
  set nd := ((hydrogenTarget U).setResolution 1).importEfficiency fun _ => 1 / 2 with hnd
  have hiso : ∀ iso ∈ nd.isotopes, PhysicalIsotope iso := hydrogen_isotopes U
  have hfall : ∀ iso ∈ nd.isotopes, FallingSpectrum fun E => dRdERIsotope U I E p (Distribution.ofSHM SHM.sample) iso := fun iso hx =>
    C96_isotope hI (hiso iso hx) (.inr rfl) one_pos hs.2.2 zero_le_one (fun _ _ => g1) g2
  refine ⟨nd, { Detector.make "H" 1 "Nuclei" with usingEnergyThreshold := true, energyThreshold := 2, energyMax := 20 }, p, rfl, rfl, hreach, rfl, fun E hE => ?_⟩
  refine C119_efficiencies (U := U) hI le_rfl (by simp [nd, importEfficiency, setResolution, hydrogenTarget]) zero_le_one (fun iso hx => (hiso iso hx).2.2) (fun iso hx E hE => ?_)
    (fun iso hx x y hx0 hxy => AntitoneOn.intervalIntegrable fun u hu w _ huw => ?_) (fun t ht E => ?_) (by linarith) (by show (2 : ℝ) ≤ E + 9 * 1; linarith)
  · obtain ⟨r, _, e, -, h1, h2⟩ := hfall iso hx E E hE le_rfl
    exact ⟨r, h1.trans h2, e⟩
  · rw [Set.uIcc_of_le hxy] at hu
    exact (FallingSpectrum.value (hfall iso hx) (hx0.trans_le hu.1)).2.2 w huw
  · have : t = fun _ => 1 / 2 := by simpa [nd, importEfficiency, setResolution, hydrogenTarget] using ht
    subst this
    norm_num

/-- Non-vacuity: hydrogen in a standard halo, with a resolution of 1 and two bins between 1 and 20, as observed between 10 and 14. -/
example (hU : 1 / 10 ^ 6 * U.eV ≤ 1) (hI : T.integrate.Exact) : ∃ (nd : NuclearDetector) (d : Detector) (p : DMParticle) (s : ℝ), nd.resolution = 1 ∧ Reachable U p ∧
    d.energyThreshold = 1 ∧ d.energyMax = 20 ∧ (nd.toClass U T (Distribution.ofSHM SHM.sample)).signalsTotal d p = .ok s ∧
    s ≤ d.exposure * (∫ E in (2 : ℝ)..26, ((nd.setResolution 0).dRdE U T.integrate d E p (Distribution.ofSHM SHM.sample)).valueOr0) ∧
    (1 - Real.exp (-18)) * (d.exposure * ∫ E in (10 : ℝ)..14, ((nd.setResolution 0).dRdE U T.integrate d E p (Distribution.ofSHM SHM.sample)).valueOr0) ≤ s := by
  obtain ⟨f, -, hf, hp, hfs⟩ := makeSI_eq (U := U) (m := 1) (s := 1) one_pos zero_le_one
  set p : DMParticle := { standard U 1 1 (.SI .contact (U.aEM * U.mElectron) 0) with fp := f, fn := f, lowMass := true } with hpd
  have hval : ∀ op ∈ [DMParticle.Op.setLowMassMode true], ValidOp op := fun op ho => by
    simp only [List.mem_cons, List.not_mem_nil, or_false] at ho
    rcases ho with rfl; trivial
  have hreach : Reachable U p := ⟨_, [.setLowMassMode true], .inl ⟨1, 1, one_pos, hp⟩, hval, rfl⟩
  have hs : SHM.sample.Physical ∧ SHM.sample.vObs ≤ SHM.sample.vEsc ∧ 0 ≤ SHM.sample.density := by
    refine ⟨⟨?_, ?_⟩, ?_, ?_⟩ <;> norm_num [SHM.sample, SHM.makeSpeed, SHM.normalize]
  obtain ⟨g1, g2⟩ := C96_standard_halo (U := Units.sample) SHM.sample_reachable hs.1 hs.2.1
  obtain ⟨d, hd, -⟩ := (C27_use_energy_bins (Detector.make "H" 1 "Nuclei") 1 20 2 (by norm_num)).1 (by simp [Detector.make]) (by norm_num)
  obtain ⟨b1, b2, b3, b4, b5, b6⟩ := C37_configured (n := 2) ⟨Detector.make "H" 1 "Nuclei", [], ⟨_, _, _, rfl⟩, rfl⟩ (by norm_num) hd
  have hrest : d.flatEfficiency = 1 ∧ d.exposure = 1 := by
    unfold Detector.useEnergyBins at hd
    obtain ⟨d1, h1, h2⟩ := Outcome.bind_eq_ok.1 hd
    obtain ⟨_, rfl⟩ := Detector.initializeBinned_ok h1
    split_ifs at h2
    cases h2
    exact ⟨rfl, rfl⟩
  set nd := (hydrogenTarget U).setResolution 1 with hnd
  have hev : (0 : ℝ) < 1 / 10 ^ 6 * U.eV := by have := U.eV_pos; positivity
  have hspec : FallingSpectrum fun E => (nd.setResolution 0).dRdE U T.integrate d E p (Distribution.ofSHM SHM.sample) :=
    C96_spectrum hI (hydrogen_isotopes U) hev rfl le_rfl (by simp [nd, setResolution, hydrogenTarget]) (by rw [hrest.1]; exact zero_le_one) (.inr rfl) one_pos
      hs.2.2 zero_le_one (fun _ _ => g1) g2
  obtain ⟨h0, hint⟩ := C119_falling hspec
  obtain ⟨s, k1, k2, k3⟩ := C119_events (U := U) (T := T) (nd := nd) (d := d) (p := p) hI hU rfl b1 b2 (by rw [b3]; norm_num) (by rw [b3]; norm_num)
    (by rw [b3]; exact b6) (by rw [hrest.2]; exact zero_le_one) (by rw [b4]; exact zero_le_one) h0 hint
  have hσ : nd.resolution = 1 := rfl
  rw [b4, b5, hσ] at k2
  rw [hσ, b4, b5] at k3
  norm_num at k2
  exact ⟨nd, d, p, s, rfl, hreach, b4, b5, k1, k2, k3 10 14 (by norm_num) (by norm_num) (by norm_num) (by norm_num)⟩

end Obscura
