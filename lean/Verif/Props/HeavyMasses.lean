import Verif.Lemmas.HeavyMasses
import Verif.Props.Pieces

/-!
# C111: heavy particles
-/

namespace Obscura

open Spec NuclearDetector DMParticle MeasureTheory Filter
open scoped Topology

variable {U : Units} {I : Integrator} {T : Tools} {nd : NuclearDetector} {d : Detector} {p : DMParticle} {q : ℝ → DMParticle} {h : Distribution} {iso : Isotope}
  {m₀ E E₀ : ℝ}

/-- C111 (isotopes). At constant cross sections the recoil rate of every isotope, at every energy, falls like the inverse of the mass of a heavy particle:
the mass times the rate approaches a number `K`, and the rates at all masses stay below what `K` says. -/
theorem C111_isotope (hI : I.Exact) (hi : PhysicalIsotope iso) (hp : Reachable U p) (hdens : 0 ≤ h.density) (hfd : 0 ≤ p.fractionalDensity)
    (hη : p.useEtaFunction = true → h.useEta = true → FallingEta h) (hf : ProperSpeeds h) (hE : 0 < E) :
    ∃ (rate : ℝ → ℝ) (K : ℝ), (∀ m, 0 < m → ∃ q, p.setMass U m = .ok q ∧ dRdERIsotope U I E q h iso = .ok (rate m)) ∧
      Tendsto (fun m => m * rate m) atTop (𝓝 K) ∧ ∀ m, 0 < m → 0 ≤ rate m ∧ massFactor U m * rate m ≤ U.mProton ^ 2 * K := by
  obtain ⟨B, B0, hB⟩ := isotope_heavy hI hi hp hdens hfd hη hf hE
  have hb := reachable_inv hp
  have hs : ∀ m, 0 < m → p.setMass U m = .ok (withMass U p m) := fun m hm => setMass_ok hb hm
  set rate : ℝ → ℝ := fun m => (dRdERIsotope U I E (withMass U p m) h iso).valueOr0
  have hr : ∀ m, 0 < m → dRdERIsotope U I E (withMass U p m) h iso = .ok (rate m) ∧ 0 ≤ rate m ∧ massFactor U m * rate m ≤ B := fun m hm => by
    obtain ⟨r, e, r0, rB⟩ := hB m _ E hm (hs m hm) le_rfl
    have : rate m = r := by simp only [rate, e]; rfl
    rw [this]
    exact ⟨e, r0, rB⟩
  have hmono : ∀ a b, 0 < a → a ≤ b → massFactor U a * rate a ≤ massFactor U b * rate b := fun a b ha hab => by
    obtain ⟨r₁, r₂, e1, e2, -, -, hle⟩ := C100_isotope hI hi hp (hs a ha) (hs b (ha.trans_le hab)) ha hab hdens hfd hη hf hE
    have k1 := (hr a ha).1
    have k2 := (hr b (ha.trans_le hab)).1
    rw [e1] at k1
    rw [e2] at k2
    cases k1
    cases k2
    exact hle
  obtain ⟨K, k1, k2⟩ := heavy_of_mono (U := U) (r := rate) one_pos (fun a b ha => hmono a b (one_pos.trans_le ha)) fun a ha => (hr a (one_pos.trans_le ha)).2.2
  refine ⟨rate, K, fun m hm => ⟨_, hs m hm, (hr m hm).1⟩, k1, fun m hm => ⟨(hr m hm).2.1, ?_⟩⟩
  exact (hmono m (max m 1) hm (le_max_left _ _)).trans (k2 _ (le_max_right _ _))

/-- One bound for the rates of a detector at all masses and all energies above a threshold. -/
theorem theoryRate_heavy (hI : I.Exact) (hp : Reachable U p) (hlen : nd.nuclei.length ≤ nd.fractions.length) (hfr : ∀ x ∈ nd.fractions, 0 ≤ x)
    (heff : ∀ e ∈ nd.efficiencies, ∀ E, 0 ≤ e E ∧ e E ≤ 1) (hflat : 0 ≤ d.flatEfficiency) (hi : ∀ iso ∈ nd.isotopes, PhysicalIsotope iso)
    (hdens : 0 ≤ h.density) (hfd : 0 ≤ p.fractionalDensity) (hη : p.useEtaFunction = true → h.useEta = true → FallingEta h) (hf : ProperSpeeds h)
    (hE₀ : 0 < E₀) :
    ∃ B, 0 ≤ B ∧ ∀ m q E ER, 0 < m → p.setMass U m = .ok q → E₀ ≤ ER →
      ∃ r, nd.theoryRate U I d E ER q h = .ok r ∧ 0 ≤ r ∧ massFactor U m * r ≤ B := by
  have hex : ∀ iso, ∃ B, iso ∈ nd.isotopes → 0 ≤ B ∧ ∀ m q E, 0 < m → p.setMass U m = .ok q → E₀ ≤ E →
      ∃ r, dRdERIsotope U I E q h iso = .ok r ∧ 0 ≤ r ∧ massFactor U m * r ≤ B := fun iso => by
    by_cases hx : iso ∈ nd.isotopes
    · obtain ⟨B, hB⟩ := isotope_heavy hI (hi iso hx) hp hdens hfd hη hf hE₀
      exact ⟨B, fun _ => hB⟩
    · exact ⟨0, fun hn => absurd hn hx⟩
  choose B hB using hex
  have hfr' : ∀ i, 0 ≤ nd.fractions.getD i 0 := fun i => by
    rw [List.getD_eq_getElem?_getD]
    cases hx : nd.fractions[i]? with
    | none => exact le_rfl
    | some x => exact hfr x (List.mem_of_getElem? hx)
  have he : ∀ i E, 0 ≤ efficiencyOf nd i E ∧ efficiencyOf nd i E ≤ 1 := fun i E => by
    have : ∀ j, 0 ≤ nd.efficiencies.getD j (fun _ => 1) E ∧ nd.efficiencies.getD j (fun _ => 1) E ≤ 1 := fun j => by
      by_cases hj : j < nd.efficiencies.length
      · simpa [List.getD, hj] using heff _ (List.getElem_mem hj) E
      · simp [List.getD, not_lt.1 hj]
    unfold efficiencyOf
    split_ifs
    · exact this 0
    · exact this i
    · exact ⟨zero_le_one, le_rfl⟩
  have hmem : ∀ i : Fin nd.nuclei.length, ∀ iso ∈ nd.nuclei[i].isotopes, iso ∈ nd.isotopes := fun i iso hx =>
    mem_isotopes (nd := nd) (List.getElem_mem i.2) hx
  have s0 : ∀ i : Fin nd.nuclei.length, 0 ≤ (nd.nuclei[i].isotopes.map fun iso => iso.abundance * B iso).sum := fun i =>
    List.sum_nonneg fun x hx => by
      obtain ⟨iso, hiso, rfl⟩ := List.mem_map.1 hx
      exact mul_nonneg (hi iso (hmem i iso hiso)).2.2 (hB iso (hmem i iso hiso)).1
  refine ⟨∑ i : Fin nd.nuclei.length, d.flatEfficiency * nd.fractions.getD i 0 * (nd.nuclei[i].isotopes.map fun iso => iso.abundance * B iso).sum,
    Finset.sum_nonneg fun i _ => mul_nonneg (mul_nonneg hflat (hfr' i)) (s0 i), fun m q E ER hm hq hER => ?_⟩
  have hiso : ∀ iso ∈ nd.isotopes, dRdERIsotope U I ER q h iso = .ok (dRdERIsotope U I ER q h iso).valueOr0 ∧
      0 ≤ (dRdERIsotope U I ER q h iso).valueOr0 ∧ massFactor U m * (dRdERIsotope U I ER q h iso).valueOr0 ≤ B iso := fun iso hx => by
    obtain ⟨r, e, r0, hle⟩ := (hB iso hx).2 m q ER hm hq hER
    rw [e]
    exact ⟨rfl, r0, hle⟩
  have t0 : ∀ i : Fin nd.nuclei.length, 0 ≤ (nd.nuclei[i].isotopes.map fun iso => iso.abundance * (dRdERIsotope U I ER q h iso).valueOr0).sum := fun i =>
    List.sum_nonneg fun x hx => by
      obtain ⟨iso, hx', rfl⟩ := List.mem_map.1 hx
      exact mul_nonneg (hi iso (hmem i iso hx')).2.2 (hiso iso (hmem i iso hx')).2.1
  refine ⟨_, theoryRate_eq_of hlen fun iso hx => (hiso iso hx).1,
    Finset.sum_nonneg fun i _ => mul_nonneg (mul_nonneg (mul_nonneg (he i E).1 hflat) (hfr' i)) (t0 i), ?_⟩
  rw [Finset.mul_sum]
  refine Finset.sum_le_sum fun i _ => ?_
  have hF := (massFactor_pos (U := U) hm).le
  calc massFactor U m * (efficiencyOf nd i E * d.flatEfficiency * nd.fractions.getD i 0 *
        (nd.nuclei[i].isotopes.map fun iso => iso.abundance * (dRdERIsotope U I ER q h iso).valueOr0).sum)
      = efficiencyOf nd i E * (d.flatEfficiency * nd.fractions.getD i 0 *
        (nd.nuclei[i].isotopes.map fun iso => iso.abundance * (massFactor U m * (dRdERIsotope U I ER q h iso).valueOr0)).sum) := by
        rw [sum_scale]
        ring
    _ ≤ 1 * (d.flatEfficiency * nd.fractions.getD i 0 * (nd.nuclei[i].isotopes.map fun iso => iso.abundance * B iso).sum) := by
        have hle : (nd.nuclei[i].isotopes.map fun iso => iso.abundance * (massFactor U m * (dRdERIsotope U I ER q h iso).valueOr0)).sum ≤
            (nd.nuclei[i].isotopes.map fun iso => iso.abundance * B iso).sum := List.sum_le_sum fun iso hx =>
          mul_le_mul_of_nonneg_left (hiso iso (hmem i iso hx)).2.2 (hi iso (hmem i iso hx)).2.2
        refine mul_le_mul (he i E).2 (mul_le_mul_of_nonneg_left hle (mul_nonneg hflat (hfr' i))) ?_ zero_le_one
        rw [sum_scale]
        exact mul_nonneg (mul_nonneg hflat (hfr' i)) (mul_nonneg hF (t0 i))
    _ = _ := one_mul _

theorem dRdE_heavy (hI : I.Exact) (hp : Reachable U p) (hlen : nd.nuclei.length ≤ nd.fractions.length) (hfr : ∀ x ∈ nd.fractions, 0 ≤ x)
    (heff : ∀ e ∈ nd.efficiencies, ∀ E, 0 ≤ e E ∧ e E ≤ 1) (hflat : 0 ≤ d.flatEfficiency) (hi : ∀ iso ∈ nd.isotopes, PhysicalIsotope iso)
    (hdens : 0 ≤ h.density) (hfd : 0 ≤ p.fractionalDensity) (hη : p.useEtaFunction = true → h.useEta = true → FallingEta h) (hf : ProperSpeeds h)
    (hthr : 0 < d.energyThreshold) :
    ∃ B, 0 ≤ B ∧ ∀ m q E, 0 < m → p.setMass U m = .ok q → d.energyThreshold ≤ E → massFactor U m * |(nd.dRdE U I d E q h).valueOr0| ≤ B := by
  by_cases hres : nd.resolution < 1 / 10 ^ 6 * U.eV
  · obtain ⟨B, B0, hB⟩ := theoryRate_heavy (nd := nd) (d := d) hI hp hlen hfr heff hflat hi hdens hfd hη hf hthr
    refine ⟨B, B0, fun m q E hm hq hE => ?_⟩
    unfold NuclearDetector.dRdE
    rw [if_pos hres]
    obtain ⟨r, e, r0, hr⟩ := hB m q E E hm hq hE
    rw [e]
    show massFactor U m * |r| ≤ B
    rwa [abs_of_nonneg r0]
  · have hσ : 0 < nd.resolution := lt_of_lt_of_le (by have := U.eV_pos; positivity) (not_lt.1 hres)
    obtain ⟨B, B0, hB⟩ := theoryRate_heavy (nd := nd) (d := d) (E₀ := 2 * nd.resolution) hI hp hlen hfr heff hflat hi hdens hfd hη hf (by positivity)
    have hpi := Real.pi_pos
    set g := 1 / (Real.sqrt (2 * Real.pi) * nd.resolution) with hg
    have g0 : 0 ≤ g := by positivity
    refine ⟨g * B * (12 * nd.resolution), by positivity, fun m q E hm hq hE => ?_⟩
    have F := massFactor_pos (U := U) hm
    unfold NuclearDetector.dRdE
    rw [if_neg hres]
    dsimp only
    set a := max (max (E - 6 * nd.resolution) (d.energyThreshold - 3 * nd.resolution)) (2 * nd.resolution) with ha
    have a1 : 2 * nd.resolution ≤ a := le_max_right _ _
    have a2 : E - 6 * nd.resolution ≤ a := (le_max_left _ _).trans (le_max_left _ _)
    have a3 : a ≤ E + 6 * nd.resolution := max_le (max_le (by linarith) (by linarith)) (by linarith)
    simp only [Outcome.valueOr0]
    rw [hI]
    have key := intervalIntegral.norm_integral_le_of_norm_le_const (a := a) (b := E + 6 * nd.resolution) (C := g * (B / massFactor U m))
      (f := fun ER => pdfGauss E ER nd.resolution * (nd.theoryRate U I d E ER q h).valueOr0) fun ER hER => by
        rw [Set.uIoc_of_le a3] at hER
        obtain ⟨r, e, r0, hr⟩ := hB m q E ER hm hq (a1.trans hER.1.le)
        rw [e, Real.norm_eq_abs]
        show |pdfGauss E ER nd.resolution * r| ≤ _
        have p0 : 0 ≤ pdfGauss E ER nd.resolution := by unfold pdfGauss; positivity
        rw [abs_of_nonneg (mul_nonneg p0 r0)]
        refine mul_le_mul ?_ ?_ r0 g0
        · unfold pdfGauss
          refine mul_le_of_le_one_right (by positivity) (Real.exp_le_one_iff.2 ?_)
          have := sq_nonneg ((E - ER) / nd.resolution)
          linarith
        · rw [le_div_iff₀ F]
          linarith
    rw [Real.norm_eq_abs] at key
    calc massFactor U m * |_| ≤ massFactor U m * (g * (B / massFactor U m) * |E + 6 * nd.resolution - a|) := mul_le_mul_of_nonneg_left key F.le
      _ = g * B * |E + 6 * nd.resolution - a| := by field_simp
      _ ≤ g * B * (12 * nd.resolution) := by
        refine mul_le_mul_of_nonneg_left ?_ (by positivity)
        rw [abs_of_nonneg (by linarith)]
        linarith

theorem Proper.merge {p₁ p₂ : DMParticle} (h₁ : Proper U I h nd d [p₁]) (h₂ : Proper U I h nd d [p₂]) : Proper U I h nd d [p₁, p₂] :=
  { h₁ with
    resolution := fun hr q hq => by
      simp only [List.mem_cons, List.not_mem_nil, or_false] at hq
      rcases hq with rfl | rfl
      · exact h₁.resolution hr q (by simp)
      · exact h₂.resolution hr q (by simp)
    spectra := fun q hq => by
      simp only [List.mem_cons, List.not_mem_nil, or_false] at hq
      rcases hq with rfl | rfl
      · exact h₁.spectra q (by simp)
      · exact h₂.spectra q (by simp) }

theorem bins_heavy (hI : T.integrate.Exact) (hp : Reachable U p) (hm₀ : 0 < m₀) (hq : ∀ m, m₀ ≤ m → p.setMass U m = .ok (q m))
    (hP : ∀ m, m₀ ≤ m → Proper U T.integrate h nd d [q m]) (heff : ∀ e ∈ nd.efficiencies, ∀ E, e E ≤ 1) (hdens : 0 ≤ h.density)
    (hfd : 0 ≤ p.fractionalDensity) (hη : p.useEtaFunction = true → h.useEta = true → FallingEta h) (hf : ProperSpeeds h)
    (hb : BaseReachable d) (hd : d.analysis = .binnedPoisson) (hn : d.bins + 1 < 2 ^ 32) :
    ∃ B : ℕ → ℝ, ∀ m, m₀ ≤ m → ∃ ss, (nd.toClass U T h).signalsBinned d (q m) = .ok ss ∧ ss.length = d.bins ∧ ∀ i < d.bins, massFactor U m * ss.getD i 0 ≤ B i := by
  have hP₀ := hP m₀ le_rfl
  obtain ⟨B, B0, hB⟩ := dRdE_heavy (I := T.integrate) hI hp hP₀.fractions hP₀.composition (fun e he E => ⟨hP₀.tables e he E, heff e he E⟩) hP₀.flat hP₀.isotopes
    hdens hfd hη hf hP₀.threshold
  set w := (d.energyMax - d.energyThreshold) / d.bins with hw
  refine ⟨fun i => d.binEfficiencies.getD i 0 * (d.exposure * (B * |w|)), fun m hm => ?_⟩
  obtain ⟨ss, a1, a2, a3⟩ := C37_bin_signals (p := q m) (C := nd.toClass U T h) hb hd hI hn
  refine ⟨ss, a1, a2, fun i hlt => ?_⟩
  have hm' := hm₀.trans_le hm
  have F := massFactor_pos (U := U) hm'
  obtain ⟨-, -, f3, -⟩ := (Detector.baseReachable_inv hb).energies hd
  have w0 : 0 ≤ w := div_nonneg (sub_nonneg.2 f3) (Nat.cast_nonneg _)
  have hedge : ∀ k : ℕ, binEdge d.energyThreshold d.energyMax d.bins k = d.energyThreshold + k * w := fun _ => rfl
  rw [a3 i hlt, hedge, hedge]
  have l1 : d.energyThreshold + i * w ≤ d.energyThreshold + ((i + 1 : ℕ) : ℝ) * w := by push_cast; linarith
  have l0 : d.energyThreshold ≤ d.energyThreshold + i * w := le_add_of_nonneg_right (by positivity)
  have key := intervalIntegral.norm_integral_le_of_norm_le_const (a := d.energyThreshold + i * w) (b := d.energyThreshold + ((i + 1 : ℕ) : ℝ) * w)
    (C := B / massFactor U m) (f := fun E => (nd.toClass U T h).dRdE d E (q m)) fun E hE => by
      rw [Set.uIoc_of_le l1] at hE
      have := hB m (q m) E hm' (hq m hm) (l0.trans hE.1.le)
      rw [Real.norm_eq_abs, le_div_iff₀ F, mul_comm]
      exact this
  rw [mul_left_comm, mul_left_comm (massFactor U m)]
  refine mul_le_mul_of_nonneg_left (mul_le_mul_of_nonneg_left ?_ hP₀.exposure) (hP₀.efficiencies i hlt)
  calc massFactor U m * _ ≤ massFactor U m * (B / massFactor U m * |d.energyThreshold + ((i + 1 : ℕ) : ℝ) * w - (d.energyThreshold + i * w)|) :=
        mul_le_mul_of_nonneg_left ((le_abs_self _).trans key) F.le
    _ = B * |w| := by
        rw [show d.energyThreshold + ((i + 1 : ℕ) : ℝ) * w - (d.energyThreshold + i * w) = w by push_cast; ring]
        field_simp

/-- C111 (bins). So do the expected numbers of events in the energy bins of a detector, with and without an energy resolution: the mass times the number of
events approaches a number. -/
theorem C111_bins (hI : T.integrate.Exact) (hp : Reachable U p) (hm₀ : 0 < m₀) (hq : ∀ m, m₀ ≤ m → p.setMass U m = .ok (q m))
    (hP : ∀ m, m₀ ≤ m → Proper U T.integrate h nd d [q m]) (heff : ∀ e ∈ nd.efficiencies, ∀ E, e E ≤ 1) (hdens : 0 ≤ h.density)
    (hfd : 0 ≤ p.fractionalDensity) (hη : p.useEtaFunction = true → h.useEta = true → FallingEta h) (hf : ProperSpeeds h)
    (hb : BaseReachable d) (hd : d.analysis = .binnedPoisson) (hn : d.bins + 1 < 2 ^ 32) :
    ∃ (events : ℝ → List ℝ) (K : ℕ → ℝ), (∀ m, m₀ ≤ m → (nd.toClass U T h).signalsBinned d (q m) = .ok (events m) ∧ (events m).length = d.bins) ∧
      ∀ i < d.bins, Tendsto (fun m => m * (events m).getD i 0) atTop (𝓝 (K i)) ∧
        ∀ m, m₀ ≤ m → massFactor U m * (events m).getD i 0 ≤ U.mProton ^ 2 * K i := by
  obtain ⟨B, hB⟩ := bins_heavy hI hp hm₀ hq hP heff hdens hfd hη hf hb hd hn
  set events : ℝ → List ℝ := fun m => match (nd.toClass U T h).signalsBinned d (q m) with
    | .ok l => l
    | _ => []
  have hev : ∀ m, m₀ ≤ m → (nd.toClass U T h).signalsBinned d (q m) = .ok (events m) ∧ (events m).length = d.bins ∧
      ∀ i < d.bins, massFactor U m * (events m).getD i 0 ≤ B i := fun m hm => by
    obtain ⟨ss, e, e', hs⟩ := hB m hm
    have : events m = ss := by simp only [events, e]
    rw [this]
    exact ⟨e, e', hs⟩
  have hK : ∀ i, ∃ K, i < d.bins → Tendsto (fun m => m * (events m).getD i 0) atTop (𝓝 K) ∧
        ∀ m, m₀ ≤ m → massFactor U m * (events m).getD i 0 ≤ U.mProton ^ 2 * K := fun i => by
    by_cases hi : i < d.bins
    · obtain ⟨K, hK⟩ := heavy_of_mono (U := U) (r := fun m => (events m).getD i 0) hm₀ (fun a b ha hab => by
        have hb' := ha.trans hab
        obtain ⟨s₁, s₂, e1, e2, -, -, hle⟩ := C100_bins hI hp (hq a ha) (hq b hb') (hm₀.trans_le ha) hab ((hP a ha).merge (hP b hb')) hdens hfd hη hf hb hd hn
        have k1 := (hev a ha).1
        have k2 := (hev b hb').1
        rw [e1] at k1
        rw [e2] at k2
        rw [← Outcome.ok.inj k1, ← Outcome.ok.inj k2]
        exact hle i hi) fun a ha => (hev a ha).2.2 i hi
      exact ⟨K, fun _ => hK⟩
    · exact ⟨0, fun hn => absurd hn hi⟩
  choose K hK using hK
  exact ⟨events, K, fun m hm => ⟨(hev m hm).1, (hev m hm).2.1⟩, fun i hi => hK i hi⟩

/-- C111 (limits). For heavy particles limits on the cross section are proportional to the mass up to a bounded factor: once a binned analysis finds a limit
at the mass `m₀`, the limits at all larger masses lie between two multiples of the mass factor (which for heavy particles is the mass times a constant). -/
theorem C111_limit {cert : ℝ} {r₀ : Detector × DMParticle × ℝ} (hR : T.findRoot.Exact) (hI : T.integrate.Exact) (hp : Reachable U p) (hm₀ : 0 < m₀)
    (hq : ∀ m, m₀ ≤ m → p.setMass U m = .ok (q m)) (hP : ∀ m, m₀ ≤ m → Proper U T.integrate h nd d [q m])
    (heff : ∀ e ∈ nd.efficiencies, ∀ E, e E ≤ 1) (hdens : 0 ≤ h.density)
    (hfd : 0 ≤ p.fractionalDensity) (hη : p.useEtaFunction = true → h.useEta = true → FallingEta h) (hf : ProperSpeeds h)
    (hb : BaseReachable d) (hn : d.bins + 1 < 2 ^ 32)
    (hS : ∀ m, m₀ ≤ m → ∃ c ss, SeesInBins U T h (.nuclear d nd) (q m) c ss)
    (g₀ : d.upperLimit U T (nd.toClass U T h) (q m₀) cert = .ok r₀) (hx₀ : 0 < r₀.2.2) :
    ∃ a b, 0 < a ∧ 0 < b ∧ ∀ m, m₀ ≤ m → ∃ r, d.upperLimit U T (nd.toClass U T h) (q m) cert = .ok r ∧
      (r.2.2 = -1 ∨ a * massFactor U m ≤ r.2.2 ∧ r.2.2 ≤ b * massFactor U m) := by
  obtain ⟨c₀, ss₀, S₀⟩ := hS m₀ le_rfl
  have hd : d.analysis = .binnedPoisson := S₀.binned
  obtain ⟨B, hB⟩ := bins_heavy hI hp hm₀ hq hP heff hdens hfd hη hf hb hd hn
  -- a common factor for all bins
  obtain ⟨C, C0, hC⟩ : ∃ C : ℝ, 0 < C ∧ ∀ i < d.bins, B i ≤ C * ss₀.getD i 0 := by
    refine ⟨1 + ∑ i ∈ Finset.range d.bins, |B i| / ss₀.getD i 0, ?_, fun i hi => ?_⟩
    · have : 0 ≤ ∑ i ∈ Finset.range d.bins, |B i| / ss₀.getD i 0 := Finset.sum_nonneg fun i hi =>
        div_nonneg (abs_nonneg _) (S₀.visible i (Finset.mem_range.1 hi)).le
      linarith
    · have v : 0 < ss₀.getD i 0 := S₀.visible i hi
      have h1 : |B i| / ss₀.getD i 0 ≤ ∑ i ∈ Finset.range d.bins, |B i| / ss₀.getD i 0 :=
        Finset.single_le_sum (f := fun i => |B i| / ss₀.getD i 0) (fun i hi => div_nonneg (abs_nonneg _) (S₀.visible i (Finset.mem_range.1 hi)).le)
          (Finset.mem_range.2 hi)
      rw [div_le_iff₀ v] at h1
      have := le_abs_self (B i)
      nlinarith
  have F₀ := massFactor_pos (U := U) hm₀
  refine ⟨r₀.2.2 / C, r₀.2.2 / massFactor U m₀, by positivity, by positivity, fun m hm => ?_⟩
  have F := massFactor_pos (U := U) (hm₀.trans_le hm)
  obtain ⟨c, ss, S⟩ := hS m hm
  obtain ⟨p', x, g, k⟩ := C87_value_binned S hR cert
  have g : d.upperLimit U T (nd.toClass U T h) (q m) cert = .ok (d, p', x) := g
  refine ⟨_, g, ?_⟩
  rcases k with ⟨k, -⟩ | ⟨k, -⟩
  · exact .inl k
  have x0 : 0 < x := (Real.rpow_pos_of_pos (by norm_num) _).trans_le k.1
  obtain ⟨ss', k1, -, k2⟩ := hB m hm
  have : (nd.toClass U T h).signalsBinned d (q m) = .ok ss := S.signal
  rw [this] at k1
  cases k1
  have hpar : c₀ = c := by
    have a := S₀.parameter
    have b := S.parameter
    rw [setMass_parameter (reachable_inv hp) (hq m₀ le_rfl) (hq m hm) hm₀ (hm₀.trans_le hm), b] at a
    exact (Outcome.ok.inj a).symm
  subst hpar
  refine .inr ⟨?_, ?_⟩
  · have := C87_comparison_binned (k := C / massFactor U m) S₀ S hR hR rfl (fun _ _ => rfl) (fun _ _ => rfl) (fun i hlt => by
      have b1 := k2 i hlt
      have b2 := hC i hlt
      have := S₀.positive
      rw [div_mul_div_comm, div_le_div_iff₀ this (by positivity)]
      nlinarith) g₀ g hx₀ x0
    rw [div_mul_eq_mul_div, le_div_iff₀ F] at this
    rw [div_mul_eq_mul_div, div_le_iff₀ C0]
    linarith
  · have := C100_limit hR hI hp (hq m₀ le_rfl) (hq m hm) hm₀ hm ((hP m₀ le_rfl).merge (hP m hm)) hdens hfd hη hf hb hn S₀ S g₀ g hx₀ x0
    rwa [div_le_iff₀ F] at this

/-- C111 (the end of limit curves). Since only interaction parameters up to 10¹⁰ are searched, no limit is found for particles heavier than some mass: the
result is -1, and a limit curve has no points there. -/
theorem C111_end {cert : ℝ} {r₀ : Detector × DMParticle × ℝ} (hR : T.findRoot.Exact) (hI : T.integrate.Exact) (hp : Reachable U p) (hm₀ : 0 < m₀)
    (hq : ∀ m, m₀ ≤ m → p.setMass U m = .ok (q m)) (hP : ∀ m, m₀ ≤ m → Proper U T.integrate h nd d [q m])
    (heff : ∀ e ∈ nd.efficiencies, ∀ E, e E ≤ 1) (hdens : 0 ≤ h.density)
    (hfd : 0 ≤ p.fractionalDensity) (hη : p.useEtaFunction = true → h.useEta = true → FallingEta h) (hf : ProperSpeeds h)
    (hb : BaseReachable d) (hn : d.bins + 1 < 2 ^ 32)
    (hS : ∀ m, m₀ ≤ m → ∃ c ss, SeesInBins U T h (.nuclear d nd) (q m) c ss)
    (g₀ : d.upperLimit U T (nd.toClass U T h) (q m₀) cert = .ok r₀) (hx₀ : 0 < r₀.2.2) :
    ∃ M, (∀ m, M ≤ m → ∃ r, d.upperLimit U T (nd.toClass U T h) (q m) cert = .ok r ∧ r.2.2 = -1) ∧
      ∀ masses d' p' rows, (∀ m ∈ masses, 0 < m) → d.upperLimitCurve U T (nd.toClass U T h) p masses cert = .ok (d', p', rows) →
        ∀ row ∈ rows, row.1 < M := by
  obtain ⟨a, b, a0, -, hlim⟩ := C111_limit hR hI hp hm₀ hq hP heff hdens hfd hη hf hb hn hS g₀ hx₀
  have hlarge : ∃ M, m₀ ≤ M ∧ ∀ m, M ≤ m → 10 ^ 10 < a * massFactor U m := by
    have ht : Tendsto (fun m => a * massFactor U m) atTop atTop := by
      have h1 := (reducedMass_lim U.mProton_pos).pow 2
      have h2 : Tendsto (fun m => m * reducedMass m U.mProton ^ 2) atTop atTop := tendsto_id.atTop_mul_pos (by have := U.mProton_pos; positivity) h1
      exact h2.const_mul_atTop a0
    obtain ⟨M, hM⟩ := (ht.eventually_gt_atTop (10 ^ 10)).exists_forall_of_atTop
    exact ⟨max m₀ M, le_max_left _ _, fun m hm => hM m ((le_max_right _ _).trans hm)⟩
  obtain ⟨M, M0, hM⟩ := hlarge
  have hnone : ∀ m, M ≤ m → ∃ r, d.upperLimit U T (nd.toClass U T h) (q m) cert = .ok r ∧ r.2.2 = -1 := fun m hm => by
    obtain ⟨r, g, hr⟩ := hlim m (M0.trans hm)
    refine ⟨r, g, hr.resolve_right fun hr => ?_⟩
    obtain ⟨c, ss, S⟩ := hS m (M0.trans hm)
    obtain ⟨p', x, g', k⟩ := C87_value_binned S hR cert
    have g' : d.upperLimit U T (nd.toClass U T h) (q m) cert = .ok (d, p', x) := g'
    rw [g] at g'
    cases g'
    have F := massFactor_pos (U := U) (hm₀.trans_le (M0.trans hm))
    rcases k with ⟨k, -⟩ | ⟨k, -⟩
    · have : 0 < a * massFactor U m := by positivity
      have := hr.1
      simp only [k] at this
      linarith
    · have h1 : x ≤ (10 : ℝ) ^ (10 : ℝ) := k.2
      have h2 : (10 : ℝ) ^ (10 : ℝ) = 10 ^ 10 := by norm_num [← Real.rpow_natCast]
      have := hM m hm
      have h3 : a * massFactor U m ≤ x := hr.1
      linarith
  refine ⟨M, hnone, fun masses d' p' rows hm hc row hrow => ?_⟩
  by_contra hge
  have hge : M ≤ row.1 := not_lt.1 hge
  obtain ⟨low, lim, -, e1, e2⟩ := C33_curve (.inl hb) hp hm hc
  subst e2
  obtain ⟨m, hm', hx⟩ := List.mem_filterMap.1 hrow
  split_ifs at hx with hcond
  obtain rfl := Option.some.inj hx
  have h1 := e1 m hm' hcond.1
  unfold upperLimitAt at h1
  obtain ⟨q', hq', k1⟩ := Outcome.bind_eq_ok.1 h1
  obtain ⟨r, hr, k2⟩ := Outcome.bind_eq_ok.1 k1
  rw [hq m (M0.trans hge)] at hq'
  obtain rfl := Outcome.ok.inj hq'
  obtain ⟨r', hr', h2⟩ := hnone m hge
  rw [hr] at hr'
  obtain rfl := Outcome.ok.inj hr'
  have := hcond.2
  rw [← Outcome.ok.inj k2, h2] at this
  norm_num at this

/-- Non-vacuity: the hydrogen detector with two bins sees a particle at every mass above 1, and there is a certainty at which it finds a limit at mass 1. -/
example (U : Units) : ∃ (T : Tools) (h : Distribution) (p : DMParticle) (cert M : ℝ) (d : Detector) (nd : NuclearDetector), Reachable U p ∧
    (∃ r q, p.setMass U 1 = .ok q ∧ d.upperLimit U T (nd.toClass U T h) q cert = .ok r ∧ 0 < r.2.2) ∧
    ∀ m, M ≤ m → ∃ r q, p.setMass U m = .ok q ∧ d.upperLimit U T (nd.toClass U T h) q cert = .ok r ∧ r.2.2 = -1 := by
  obtain ⟨R, hR⟩ := exists_exact_rootFinder
  set T : Tools := { flatTools with findRoot := R }
  have hI : T.integrate.Exact := exactIntegrator_exact
  obtain ⟨v, p, ss, ⟨-, hreg, hfix, S⟩, hlow, hmass, hfrac, hbr, hfp, hrel⟩ := sees_bins_point U hI
  have hp := S.particle
  have hbi := reachable_inv hp
  set d := (binnedHydrogen U).base
  have hη : FallingEta (flatHalo v) := fun a b _ _ _ => ⟨1, 1, rfl, rfl, zero_le_one, le_rfl⟩
  have hf : ProperSpeeds (flatHalo v) := ⟨fun _ _ => le_rfl, intervalIntegrable_const⟩
  have hq : ∀ m, 1 ≤ m → p.setMass U m = .ok (withMass U p m) := fun m hm => setMass_ok hbi (one_pos.trans_le hm)
  have hself : withMass U p 1 = p := by
    obtain ⟨e, he, -, hw⟩ := withMass_self (U := U) hreg.good
    conv_lhs at hw => rw [hmass]
    have h0 : 0 ≤ (withMass U p 1).fp := by
      unfold withMass
      rw [if_pos hfix, if_pos hrel]
      exact div_nonneg (Real.sqrt_nonneg _) (reducedMass_pos one_pos U.mProton_pos).le
    rw [hw] at h0
    have e0 : 0 ≤ e := nonneg_of_mul_nonneg_left h0 hfp
    have e1 : e = 1 := by nlinarith
    rw [hw, e1]
    simp only [one_mul]
  have hiso : ∀ iso ∈ (hydrogenTarget U).isotopes, PhysicalIsotope iso := fun iso hi => by
    have : (hydrogenTarget U).isotopes = [Isotope.default U] := rfl
    rw [this, List.mem_singleton] at hi
    subst hi
    have := U.mProton_pos
    refine ⟨by simpa [Isotope.default], ?_, ?_⟩ <;> norm_num [Isotope.default]
  have hev : (0 : ℝ) < 1 / 10 ^ 6 * U.eV := by have := U.eV_pos; positivity
  have hP : ∀ m, 1 ≤ m → Proper U T.integrate (flatHalo v) (hydrogenTarget U) d [withMass U p m] := fun m hm => by
    obtain ⟨x, y, hsh⟩ := withMass_shape (U := U) p m
    have hspec : FallingSpectrum fun E => (hydrogenTarget U).dRdE U T.integrate d E (withMass U p m) (flatHalo v) :=
      C96_spectrum hI hiso hev rfl le_rfl (by simp [hydrogenTarget]) zero_le_one (.inr (by rw [hsh]; exact hlow)) (by rw [hsh]; exact one_pos.trans_le hm)
        zero_le_one (by rw [hsh]; exact hfrac ▸ zero_le_one) (fun _ _ => hη) hf
    exact
      { fractions := le_rfl
        composition := by simp [hydrogenTarget]
        tables := by simp [hydrogenTarget]
        flat := zero_le_one
        isotopes := hiso
        exposure := zero_le_one
        threshold := one_pos
        efficiencies := fun i hi => by
          have hi : i < 2 := hi
          interval_cases i <;> exact zero_le_one
        resolution := fun hc => absurd hc (not_le.2 hev)
        spectra := fun q hq => by
          rw [List.mem_singleton] at hq
          subst hq
          exact AntitoneOn.intervalIntegrable fun x hx y _ hxy => by
            rw [Set.uIcc_of_le (show d.energyThreshold ≤ d.energyMax from one_le_two)] at hx
            exact (FallingSpectrum.value hspec (one_pos.trans_le hx.1)).2.2 y hxy }
  have hbr : BaseReachable d := hbr
  have hS : ∀ m, 1 ≤ m → ∃ c ss, SeesInBins U T (flatHalo v) (.nuclear d (hydrogenTarget U)) (withMass U p m) c ss := fun m hm => by
    obtain ⟨s₁, s₂, e1, e2, l1, l2, hle⟩ := C100_bins (d := d) hI hp (hq 1 le_rfl) (hq m hm) one_pos hm ((hP 1 le_rfl).merge (hP m hm))
      (show (0 : ℝ) ≤ 1 from zero_le_one) (hfrac ▸ zero_le_one) (fun _ _ => hη) hf hbr rfl (by norm_num [d, binnedHydrogen, AnyDetector.base])
    rw [hself] at e1
    have := S.signal
    rw [show ((binnedHydrogen U).toClass U T (flatHalo v)).signalsBinned (binnedHydrogen U).base p =
      ((hydrogenTarget U).toClass U T (flatHalo v)).signalsBinned d p from rfl, e1] at this
    obtain rfl := Outcome.ok.inj this
    refine ⟨1, s₂, S.detector, S.binned, S.bins, S.background, reachable_step hp (op := .setMass m) (one_pos.trans_le hm) (hq m hm), ?_, one_pos, e2, l2, fun i hi => ?_⟩
    · rw [← setMass_parameter hbi (hq 1 le_rfl) (hq m hm) one_pos (one_pos.trans_le hm), hself]
      exact S.parameter
    · have h1 := S.visible i hi
      have h2 := hle i hi
      have F1 := massFactor_pos (U := U) one_pos
      have F2 := massFactor_pos (U := U) (one_pos.trans_le hm)
      by_contra hn
      have := mul_nonpos_of_nonneg_of_nonpos F2.le (not_lt.1 hn)
      have := mul_pos F1 h1
      linarith
  obtain ⟨y, hy⟩ : ∃ y, SmallestP d ss 1 1 y := by
    obtain ⟨i, hi, hmin⟩ := (Finset.range d.bins).exists_min_image (binProb d ss 1 1) ⟨0, Finset.mem_range.2 two_pos⟩
    refine ⟨_, ⟨i, Finset.mem_range.1 hi, rfl⟩, ?_⟩
    rintro _ ⟨j, hj, rfl⟩
    exact hmin j (Finset.mem_range.2 hj)
  obtain ⟨p', x, g, k⟩ := C87_value_binned S hR (1 - y)
  have k : InRange x := by
    rcases k with ⟨-, k⟩ | ⟨k, -⟩
    · refine absurd (by rw [sub_sub_cancel]; exact hy) (k 1 ⟨?_, ?_⟩)
      · exact (Real.rpow_lt_one_of_one_lt_of_neg (by norm_num) (by norm_num)).le
      · exact Real.one_le_rpow (by norm_num) (by norm_num)
    · exact k
  have x0 : 0 < x := (Real.rpow_pos_of_pos (by norm_num) _).trans_le k.1
  have g : d.upperLimit U T ((hydrogenTarget U).toClass U T (flatHalo v)) (withMass U p 1) (1 - y) = .ok (d, p', x) := by
    rw [hself]
    exact g
  obtain ⟨M, hM, -⟩ := C111_end hR hI hp one_pos hq hP (by simp [hydrogenTarget]) (show (0 : ℝ) ≤ 1 from zero_le_one) (hfrac ▸ zero_le_one) (fun _ _ => hη) hf hbr
    (by norm_num [d, binnedHydrogen, AnyDetector.base]) hS g x0
  refine ⟨T, flatHalo v, p, 1 - y, max M 1, d, hydrogenTarget U, hp, ⟨_, _, hq 1 le_rfl, g, x0⟩, fun m hm => ?_⟩
  obtain ⟨r, hr, e⟩ := hM m ((le_max_left _ _).trans hm)
  exact ⟨r, _, hq m ((le_max_right _ _).trans hm), hr, e⟩

end Obscura
