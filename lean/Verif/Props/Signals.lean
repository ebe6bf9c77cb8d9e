import Verif.Spec.Signals
import Verif.Props.Configured
import Verif.Props.EtaBounds
import Verif.Props.IonizationSample

/-!
# C75: the predicted event numbers of a configured run are defined and not negative
-/

namespace Obscura

open Spec MeasureTheory IonizationDetector

variable {S : Setup} {rows : List NuclearRow} {cache : List Nucleus} {T : Tools}

/-- C75 (standard halo). The distribution of a file that asks for a standard halo with a density that is not negative satisfies the
conditions of the theorems below. -/
theorem C75_standard_halo {U : Units} (N : Numerics) (speeds : String → Option (List ℝ × List ℝ)) {c : Config} {s : HaloSettings}
    (hk : c "DM_distribution" = some (.string "SHM")) (hc : DescribesHalo c s) (hd : 0 ≤ s.density) (h0 : 0 < s.v0) (he : 0 < s.vesc)
    (ho : √(s.vx ^ 2 + s.vy ^ 2 + s.vz ^ 2) ≤ s.vesc) :
    ∃ h, c.distribution U N speeds = .ok h ∧ PhysicalDistribution h := by
  have hkm := kmsec_pos (U := U)
  set m := SHM.makeVel (s.params U).rho (s.params U).v0 (s.params U).vel (s.params U).vesc with hm
  have hr : SHM.Reachable U m := ⟨m, [], .vel _ _ _ _, rfl⟩
  have hp : m.Physical := ⟨mul_pos h0 hkm, mul_pos he hkm⟩
  have hvo : m.vObs = √(s.vx ^ 2 + s.vy ^ 2 + s.vz ^ 2) * (U.km / U.sec) := params_vnorm s
  have hoe : m.vObs ≤ m.vEsc := by rw [hvo]; exact mul_le_mul_of_nonneg_right ho hkm.le
  have hw := SHM.WF.of_reachable hr hp
  obtain ⟨r1, -, r2, -⟩ := C42_standard_halo_regular hr hp hoe
  refine ⟨.ofSHM m, ?_, ?_, ?_, fun v _ => r2 v, fun _ => r1⟩
  · unfold Config.distribution
    rw [Config.getString_eq hk, Outcome.bind_ok, if_pos (.inl rfl)]
    exact haloModel_eq N hc
  · have h1 := U.GeV_pos; have h2 := U.cm_pos
    show 0 ≤ s.density * (U.GeV / U.cm / U.cm / U.cm)
    positivity
  · show 0 < m.vMax
    rw [hw.vMax]; linarith [hw.vEsc_pos, hw.vObs_nonneg]

/-! ## Form factors and isotopes -/

theorem shell_formFactor_nonneg {U : Units} {P : Interpolator2D} {tables : ResponseTables} {el : String} {N L s : ℕ} {B k0 k1 q0 q1 : ℝ}
    {e : AtomicElectron} (hP : NonnegInterpolation P) (ht : ∀ name t, tables name = some t → ∀ row ∈ t, ∀ z ∈ row, 0 ≤ z)
    (hm : AtomicElectron.make P tables el N L B k0 k1 q0 q1 s = .ok e) (q E : ℝ) : 0 ≤ e.ionizationFormFactor U q E := by
  obtain ⟨_, rs, _, _, hrs, hresp, _⟩ := AtomicElectron.make_eq hm
  have hone : ∀ f ∈ e.responses, ∀ x y, 0 ≤ f x y := by
    intro f hf
    rw [hresp] at hf
    obtain ⟨r, hr, rfl⟩ := List.mem_map.1 hf
    have h3 := collect_forall₂ hrs
    obtain ⟨i, _, h4⟩ := forall₂_mem h3 hr
    unfold AtomicElectron.importResponse at h4
    split at h4
    · cases h4
    · rename_i t hti
      obtain ⟨row, _, h5⟩ := Outcome.bind_eq_ok.1 h4
      cases h5
      exact hP _ _ _ (ht _ _ hti)
  unfold AtomicElectron.ionizationFormFactor AtomicElectron.response
  dsimp only
  by_cases h1 : 1.000001 * e.qMax < q ∨ 1.000001 * e.kMax < Real.sqrt (2 * U.mElectron * E) ∨
      Real.sqrt (2 * U.mElectron * E) < 0.999999 * e.kMin
  · rw [if_pos h1]; exact le_rfl
  · rw [if_neg h1, if_pos rfl]
    cases hl : e.responses with
    | nil => exact le_rfl
    | cons f l =>
      have := hone f (by simp [hl])
      rw [vecGet_lt (by simp), Outcome.bind_ok]
      by_cases hq : e.qMin < q
      · rw [if_pos hq]; exact this _ _
      · rw [if_neg hq]
        refine mul_nonneg ?_ (this _ _)
        rw [div_div]; exact div_nonneg (mul_self_nonneg q) (mul_self_nonneg _)

theorem element_physical {U : Units} (hr : ∀ r ∈ rows, 1 ≤ r.A ∧ 0 ≤ r.spin ∧ 0 ≤ r.abundance) {Z : ℕ} :
    ∀ iso ∈ (element U rows Z).isotopes, PhysicalIsotope iso := by
  intro iso hi
  obtain ⟨r, hr', rfl⟩ := List.mem_map.1 hi
  obtain ⟨h1, h2, h3⟩ := hr r (List.mem_filter.1 hr').1
  refine ⟨?_, h2, h3⟩
  have h4 := U.mProton_pos; have h5 := U.mNucleon_pos
  have : (0 : ℝ) < r.A := by exact_mod_cast h1
  unfold isotopeOf
  dsimp only
  split_ifs <;> positivity

theorem crystal_crossSection_nonneg {U : Units} {P : Interpolator2D} {l : List ℝ} {target : String} {c : Crystal} (hP : NonnegInterpolation P)
    (hl : ∀ z ∈ l, 0 ≤ z) (hc : Crystal.make U P (fun _ => l) target = .ok c) {p : DMParticle} (hs : 0 ≤ p.sigmaElectron) (q E v : ℝ) :
    0 ≤ p.d2SigmaCrystal U q E v c := by
  obtain ⟨hf, -, t, ht, hi⟩ := Crystal.make_eq hc
  have hdq := hf.dq_pos
  have ht0 : ∀ row ∈ t, ∀ z ∈ row, 0 ≤ z := by
    intro row hrow z hz
    obtain ⟨qi, -, h1⟩ := forall₂_mem (collect_forall₂ ht) hrow
    obtain ⟨ei, -, h2⟩ := forall₂_mem (collect_forall₂ h1) hz
    obtain ⟨a, ha, h3⟩ := Outcome.bind_eq_ok.1 h2
    cases h3
    have ha : 0 ≤ a := by
      unfold vecGet at ha
      split at ha
      · rename_i x hx; cases ha; exact hl _ (List.mem_of_getElem? hx)
      · cases ha
    have := U.eV_pos
    split_ifs <;> positivity
  unfold DMParticle.d2SigmaCrystal
  split
  · unfold Crystal.formFactor
    split_ifs with h
    · simp
    · push Not at h
      have h1 := (C09_dsigma_nonneg (U := U) (p := p) (iso := ⟨1, 1, 1, 0, 0, 0, 1⟩) (q := q) (v := v) le_rfl).2 hs
      have h2 : 0 ≤ c.interpolation q E := by rw [hi]; exact hP _ _ _ ht0 _ _
      have h3 : 0 < q := hdq.trans_le h.1
      have h4 := U.aEM_pos; have h5 := U.mElectron_pos
      positivity
  · exact le_rfl

/-! ## The detectors -/

theorem ionization_total {U : Units} (hU : U.keV ≤ U.mElectron) {R : ShellRate} {d : Detector} {x : IonizationDetector} {a : Atom}
    {p : DMParticle} {h : Distribution} (hb : BuiltAtom U a) (hatoms : x.atoms = [a]) (hfr : x.fractions = [1])
    (hthr : x.usingElectronThreshold = true) (hmax : x.neMax = 100) (han : d.analysis = .poisson) (hexp : 0 ≤ d.exposure)
    (hR : NonnegShells R d p x) : ∃ s, x.signalsTotal U R T d p h = .ok s ∧ 0 ≤ s := by
  have hne : ∀ ne < 2 ^ 32, ∃ r, x.rNe U R d ne p = .ok r ∧ 0 ≤ r := fun ne hne => by
    refine C68_spectrum hU (by rw [hatoms, hfr]; rfl) (fun f hf => ?_) (fun b hb' => ?_) hR hne
    · rw [hfr] at hf; rw [List.mem_singleton.1 hf]; exact zero_le_one
    · rw [hatoms] at hb'; rw [List.mem_singleton.1 hb']; exact hb
  unfold IonizationDetector.signalsTotal
  rw [if_neg (by rw [han]; decide), if_pos hthr]
  obtain ⟨r, h1, h2, -⟩ := sumOver_nonneg (f := fun ne => do
    let r ← x.rNe U R d ne p
    .ok (d.exposure * r)) (l := List.range' x.neThreshold (x.neMax + 1 - x.neThreshold)) fun ne hmem => by
      rw [List.mem_range'_1, hmax] at hmem
      obtain ⟨r, h1, h2⟩ := hne ne (by omega)
      exact ⟨d.exposure * r, by rw [h1]; rfl, mul_nonneg hexp h2⟩
  exact ⟨r, h1, h2⟩

theorem crystal_total {U : Units} {d : Detector} {x : CrystalDetector} {p : DMParticle} {h : Distribution} {Q : ℕ}
    (hb : BuiltCrystal U x.crystal) (h1 : 1 ≤ Q) (h2 : Q ≤ 50000000) (hexp : 0 ≤ d.exposure) (hflat : 0 ≤ d.flatEfficiency)
    (hr : ∀ E, 0 ≤ E → ∃ r, dRdEeCrystal U T.integrate E p h x.crystal = .ok r ∧ 0 ≤ r)
    (hs : x.signalsTotal U T d p h = do
      let r ← rTotalCrystal U T.integrate Q p h x.crystal
      .ok (d.exposure * d.flatEfficiency * r)) : ∃ s, x.signalsTotal U T d p h = .ok s ∧ 0 ≤ s := by
  have hr : ∀ E, ∃ r, 0 ≤ E → dRdEeCrystal U T.integrate E p h x.crystal = .ok r ∧ 0 ≤ r := fun E => by
    by_cases hE : 0 ≤ E
    · obtain ⟨r, hr⟩ := hr E hE
      exact ⟨r, fun _ => hr⟩
    · exact ⟨0, fun h => absurd h hE⟩
  choose rate hrate using hr
  have hdE := (CrystalFacts.of_built hb).dE_pos
  have hg : ∀ j, 0 ≤ gridEnergy x.crystal j := fun j => by unfold gridEnergy; positivity
  have := (C44_contents (rate := rate) hb (Q := Q) (by omega) (by omega) fun j _ => (hrate _ (hg j)).1).2
  refine ⟨_, hs.trans (by rw [this]; rfl), mul_nonneg (mul_nonneg hexp hflat) ?_⟩
  unfold gridSum
  exact Finset.sum_nonneg fun j _ => mul_nonneg hdE.le (hrate _ (hg j)).2

/-- C75 (ionization). With physical data files and exact integrals, the predicted number of events of every configured ionization
detector is defined and not negative, for electron recoils and the Migdal effect. -/
theorem C75_ionization (hI : Installed S rows) (hF : PhysicalFiles S) (hP : NonnegInterpolation S.P) (hT : T.integrate.Exact)
    (hU : S.U.keV ≤ S.U.mElectron) (hcache : CacheReachable S.U (some rows) cache) {c : Config} {kind : String}
    {s : DetectorSettings} {atom : String} {thr : ℤ} (hk : c "DD_experiment" = some (.string kind))
    (hkind : kind = "Electron recoil" ∨ kind = "Migdal") (hs : DescribesDetector c s) (he : DescribesElectrons c atom thr)
    (ha : atom = "Xe" ∨ atom = "Ar") (hM : 0 < (element S.U rows (atomData atom).1).averageMass) (hthr : thr ≤ 100) (hex : 0 ≤ s.exposure) (heff : 0 ≤ s.efficiency) :
    ∃ c' D, c.detector S cache = .ok (c', D) ∧ PredictsEvents S.U T D ∧ CountsEvents S s kind (targetsOf kind) D.base ∧
      ∀ p h, 0 < h.vMax → ∃ m, (D.toClass S.U T h).minimumDMMass D.base p = .ok m := by
  obtain ⟨c', d, x, a, k1, k2, k3, k4, -, -, -, k5, k6, k7, k8, k9, -, -, hb, hmk⟩ := (C70_ionization hI hcache hk hkind hs he ha).1 hthr
  have hcounts : ∃ t, CountsEvents S s kind t d := hkind.elim (fun h => ⟨_, (k1 h).2⟩) fun h => ⟨_, (k2 h).2⟩
  obtain ⟨t, hcounts⟩ := hcounts
  have hexp : 0 ≤ d.exposure := by
    have h1 := S.M.gram_pos; have h2 := S.M.year_pos
    rw [hcounts.exposure]; unfold Setup.kg; positivity
  have hflat : 0 ≤ d.flatEfficiency := by rw [hcounts.efficiency]; exact heff
  have hform : ∀ e ∈ a.electrons, ∀ q E, 0 ≤ e.ionizationFormFactor S.U q E := fun e he q E => by
    obtain ⟨_, _, _, h⟩ := atom_shell_make hmk e he
    exact shell_formFactor_nonneg hP hF.response h q E
  have hiso : ∀ iso ∈ a.nucleus.isotopes, PhysicalIsotope iso := by
    rw [k9]; exact element_physical (hF.nuclear rows hI.nuclear)
  have hM : 0 < a.nucleus.averageMass := by
    rw [k9]; exact hM
  have hbind : ∀ e ∈ a.electrons, 0 < e.binding := fun e he => by
    obtain ⟨B₀, b1, -, -, -, -, b2⟩ := atom_bindings hb
    have := (b2 e he).2.1; have := S.U.eV_pos; linarith
  have total : ∀ (R : ShellRate) (p : DMParticle) (h : Distribution), NonnegShells R d p x →
      ∃ s, x.signalsTotal S.U R T d p h = .ok s ∧ 0 ≤ s := fun R p h hR =>
    ionization_total hU hb k7 k8 k4 k6 hcounts.analysis hexp hR
  rcases hkind with h | h
  · refine ⟨c', _, (k1 h).1, fun p h hp hh => total _ p h fun b hb' e he E hE => ?_, by rw [show targetsOf kind = "Electrons" by rw [h]; rfl]; exact (k1 h).2,
      fun p h hv => ⟨_, fdiv_ok (by positivity)⟩⟩
    rw [k7] at hb'; obtain rfl := List.mem_singleton.1 hb'
    exact C68_electron_recoil_eta hT hp.mass hh.moving (hbind e he) hM hE hp.electrons (hform e he) hh.density (fun _ => hh.pdf) hflat fun _ => hh.eta
  · refine ⟨c', _, (k2 h).1, fun p h hp hh => total _ p h fun b hb' e he E hE => ?_, by rw [show targetsOf kind = "Nuclei" by rw [h]; rfl]; exact (k2 h).2,
      fun p h hv => ⟨_, fdiv_ok (by positivity)⟩⟩
    rw [k7] at hb'; obtain rfl := List.mem_singleton.1 hb'
    exact C68_migdal_eta hT hp.mass hh.moving (hbind e he) hiso hE (hform e he) hh.density (fun _ => hh.pdf) hflat fun _ => hh.eta

/-- C75 (semiconductors). -/
theorem C75_semiconductor (hF : PhysicalFiles S) (hP : NonnegInterpolation S.P) (hT : T.integrate.Exact) {c : Config}
    {s : DetectorSettings} {target : String} {thr : ℤ} (hk : c "DD_experiment" = some (.string "Semiconductor"))
    (hs : DescribesDetector c s) (he : DescribesElectrons c target thr) (ht : target = "Si" ∨ target = "Ge") {l : List ℝ}
    (hl : S.files.crystal target = some l) (hlen : 500 * 900 ≤ l.length) (h1 : 1 ≤ thr) (h2 : thr ≤ 50000000)
    (hex : 0 ≤ s.exposure) (heff : 0 ≤ s.efficiency) :
    ∃ D, c.detector S cache = .ok (cache, D) ∧ PredictsEvents S.U T D ∧
      CountsEvents S s "Semiconductor" (targetsOf "Semiconductor") D.base ∧
      ∀ p h, 0 < h.vMax → ∃ m, (D.toClass S.U T h).minimumDMMass D.base p = .ok m := by
  obtain ⟨d, x, k1, hcounts, -, -, hb, -, -, hmk, k2⟩ := (C70_semiconductor (cache := cache) hk hs he).1 ht l hl hlen
  obtain ⟨-, k2⟩ := k2 h1 (by omega)
  refine ⟨_, k1, fun p h hp hh => ?_, hcounts, fun p h hv => ⟨_, fdiv_ok (by positivity)⟩⟩
  obtain ⟨Q, rfl⟩ := Int.eq_ofNat_of_zero_le (by omega : (0 : ℤ) ≤ thr)
  refine crystal_total (d := d) (Q := Q) hb (by omega) (by omega) ?_ ?_ (fun E hE => ?_) (k2 T p h)
  · have h1 := S.M.gram_pos; have h2 := S.M.year_pos
    rw [hcounts.exposure]; unfold Setup.kg; positivity
  · rw [hcounts.efficiency]; exact heff
  · exact C68_crystal hT hb hp.mass hE hh.density
      (fun q v => crystal_crossSection_nonneg hP (hF.crystal _ _ hl) hmk hp.electrons q E v) (fun _ => hh.pdf) fun _ => hh.eta

theorem logSpace_between {a b : ℝ} (ha : 0 < a) (hab : a ≤ b) {n : ℕ} {z : ℝ} (hz : z ∈ logSpace a b n) : a ≤ z := by
  obtain ⟨i, hi, rfl⟩ := List.mem_map.1 hz
  have h1 : 1 ≤ b / a := (one_le_div ha).2 hab
  refine le_mul_of_one_le_right ha.le (Real.one_le_rpow h1 ?_)
  have : i < n := List.mem_range.1 hi
  rcases Nat.lt_or_ge 1 n with hn | hn
  · have : (1 : ℝ) < n := by exact_mod_cast hn
    exact div_nonneg (by positivity) (by linarith)
  · have : i = 0 := by omega
    simp [this]

/-- C75 (nuclear recoils), for detectors with a positive threshold (otherwise the logarithmic grid of energies is not defined). -/
theorem C75_nuclear_partial (hf : S.files.nuclear = some rows) (hw : WellFormed rows) (hF : PhysicalFiles S) (hT : T.integrate.Exact)
    (hN : NonnegIntegral T) (hcache : CacheReachable S.U (some rows) cache) {c : Config}
    {s : DetectorSettings} {r : RecoilSettings} (hk : c "DD_experiment" = some (.string "Nuclear recoil")) (hs : DescribesDetector c s)
    (hr : DescribesRecoils c r) (hne : r.composition ≠ []) (hZ : ∀ e ∈ r.composition, 1 ≤ e.1 ∧ e.1 ≤ 92)
    (hx : ∀ e ∈ r.composition, 0 ≤ e.2)
    (hm : 1 < (r.composition.map Prod.snd).sum → ∀ e ∈ r.composition, 0 < (element S.U rows e.1).averageMass)
    (hE : r.threshold ≤ r.highest) (hthr : 0 < r.threshold) (hex : 0 ≤ s.exposure) (heff : 0 ≤ s.efficiency) :
    ∃ c' D, c.detector S cache = .ok (c', D) ∧ PredictsEvents S.U T D ∧
      CountsEvents S s "Nuclear recoil" (targetsOf "Nuclear recoil") D.base := by
  obtain ⟨c', d, x, k1, hcounts, -, -, k2, k3, k4, k5, k6, k7, -, k8⟩ :=
    C70_nuclear hf hw hcache hk hs hr hne hZ (fun h e he => ⟨hx e he, hm h e he⟩) hE
  have hkeV := S.U.keV_pos
  refine ⟨c', _, k1, fun p h hp hh => ?_, hcounts⟩
  have hiso : ∀ iso ∈ x.isotopes, PhysicalIsotope iso := by
    intro iso hi
    unfold NuclearDetector.isotopes at hi
    rw [k4] at hi
    obtain ⟨n, hn, hi⟩ := List.mem_flatMap.1 hi
    obtain ⟨e, -, rfl⟩ := List.mem_map.1 hn
    exact element_physical (hF.nuclear rows hf) iso hi
  have hfr : x.fractions.length = x.nuclei.length ∧ ∀ y ∈ x.fractions, 0 ≤ y := by
    by_cases hsum : 1 < (r.composition.map Prod.snd).sum
    · rw [k5 hsum, k4]
      unfold massShares
      refine ⟨by simp, fun y hy => ?_⟩
      obtain ⟨e, he, rfl⟩ := List.mem_map.1 hy
      refine div_nonneg (mul_nonneg (hx e he) (hm hsum e he).le) (List.sum_nonneg fun z hz => ?_)
      obtain ⟨e, he, rfl⟩ := List.mem_map.1 hz
      exact mul_nonneg (hx e he) (hm hsum e he).le
    · rw [k6 (not_lt.1 hsum), k4]
      refine ⟨by simp, fun y hy => ?_⟩
      obtain ⟨e, he, rfl⟩ := List.mem_map.1 hy
      exact hx e he
  have hres : 0 ≤ x.resolution := by rw [k7]; exact le_max_right _ _
  have hflat : 0 ≤ d.flatEfficiency := by rw [hcounts.efficiency]; exact heff
  have hpos : 0 < d.energyThreshold := by rw [k2]; positivity
  have hle : d.energyThreshold ≤ d.energyMax := by rw [k2, k3]; exact mul_le_mul_of_nonneg_right hE hkeV.le
  have hrate : ∀ E, d.energyThreshold ≤ E → 0 ≤ (x.dRdE S.U T.integrate d E p h).valueOr0 := fun E hE => by
    obtain ⟨y, h1, h2⟩ := C68_nuclear_recoil (U := S.U) (d := d) hT (E := E) hp.mass hiso hfr.1 (fun _ => hh.eta) hfr.2 hh.density hh.pdf
      hp.density (by rw [k8]; simp) hflat hres (hpos.le.trans hE) (by linarith)
    rw [h1]; exact h2
  have hsig : (AnyDetector.toClass S.U T h (.nuclear d x)).signalsTotal d p =
      .ok (d.exposure * T.interpolationIntegral (logSpace d.energyThreshold d.energyMax 200)
        ((logSpace d.energyThreshold d.energyMax 200).map fun E => (x.dRdE S.U T.integrate d E p h).valueOr0) d.energyThreshold d.energyMax) := by
    show d.baseSignalsTotal T _ p = _
    unfold Detector.baseSignalsTotal
    rw [if_neg (by rw [hcounts.analysis]; decide), if_neg (by push Not; exact ⟨hpos, hpos.trans_le hle⟩)]
  refine ⟨_, hsig, mul_nonneg ?_ (hN _ _ _ _ hle fun y hy => ?_)⟩
  · have h1 := S.M.gram_pos; have h2 := S.M.year_pos
    rw [hcounts.exposure]; unfold Setup.kg; positivity
  · obtain ⟨E, hE, rfl⟩ := List.mem_map.1 hy
    exact hrate E (logSpace_between hpos hle hE)

/-- C75 (error case of nuclear recoils): without a positive threshold the prediction is not a number, for every particle and halo. -/
theorem C75_fails_zero_threshold (hf : S.files.nuclear = some rows) (hw : WellFormed rows) (hcache : CacheReachable S.U (some rows) cache)
    {c : Config} {s : DetectorSettings} {r : RecoilSettings} (hk : c "DD_experiment" = some (.string "Nuclear recoil"))
    (hs : DescribesDetector c s) (hr : DescribesRecoils c r) (hne : r.composition ≠ []) (hZ : ∀ e ∈ r.composition, 1 ≤ e.1 ∧ e.1 ≤ 92)
    (hm : 1 < (r.composition.map Prod.snd).sum → ∀ e ∈ r.composition, 0 ≤ e.2 ∧ 0 < (element S.U rows e.1).averageMass)
    (hE : r.threshold ≤ r.highest) (hthr : r.threshold ≤ 0) :
    ∃ c' D, c.detector S cache = .ok (c', D) ∧ ∀ p h, (D.toClass S.U T h).signalsTotal D.base p = .nonfinite := by
  obtain ⟨c', d, x, k1, hcounts, -, -, k2, -⟩ := C70_nuclear hf hw hcache hk hs hr hne hZ hm hE
  refine ⟨c', _, k1, fun p h => ?_⟩
  have hpos : d.energyThreshold ≤ 0 := by rw [k2]; exact mul_nonpos_of_nonpos_of_nonneg hthr S.U.keV_pos.le
  show d.baseSignalsTotal T _ p = _
  unfold Detector.baseSignalsTotal
  rw [if_neg (by rw [hcounts.analysis]; decide), if_pos (.inl hpos)]

/-! ## Concrete cases -/

/-- The shipped table of nuclei contains nothing unphysical. -/
theorem shippedTable_physical : ∀ r ∈ shippedTable, 1 ≤ r.A ∧ 0 ≤ r.spin ∧ 0 ≤ r.abundance := by
  obtain ⟨-, h2, -, -⟩ := shipped_check
  rw [List.all_eq_true] at h2
  intro r hr
  obtain ⟨s, hs, rfl⟩ := List.mem_map.1 hr
  have := of_decide_eq_true (h2 s hs)
  refine ⟨?_, ?_, ?_⟩
  · show 1 ≤ s.A; omega
  · show (0 : ℝ) ≤ s.twoSpin / 2; positivity
  · show (0 : ℝ) ≤ s.abundance / 10 ^ 8; positivity

theorem sampleSetup_physical : PhysicalFiles sampleSetup where
  response := by
    intro name t h row hrow z hz
    simp only [sampleSetup, Option.some.injEq] at h
    subst h
    simp at hrow
    subst hrow
    simp at hz
    subst hz
    exact zero_le_one
  crystal := by
    intro target l h z hz
    simp only [sampleSetup] at h
    split_ifs at h
    cases h
    rw [List.eq_of_mem_replicate hz]
    exact zero_le_one
  nuclear := by
    intro rows h
    have h : some shippedTable = some rows := h
    cases h
    exact shippedTable_physical

theorem sampleSetup_nonneg : NonnegInterpolation sampleSetup.P := fun _ _ _ _ _ _ => zero_le_one

theorem sampleSetup_keV : sampleSetup.U.keV ≤ sampleSetup.U.mElectron := by norm_num [sampleSetup, Units.sample, Units.keV]

/-- Non-vacuity of `C75_standard_halo`: the example file. -/
example {U : Units} (N : Numerics) (speeds) : ∃ h, exampleConfig.distribution U N speeds = .ok h ∧ PhysicalDistribution h := by
  have hs : √((0 : ℝ) ^ 2 + 232 ^ 2 + 0 ^ 2) = 232 := by
    rw [show (0 : ℝ) ^ 2 + 232 ^ 2 + 0 ^ 2 = 232 ^ 2 by norm_num]; exact Real.sqrt_sq (by norm_num)
  exact C75_standard_halo N speeds (by simp [exampleConfig]) example_halo (by norm_num) (by norm_num) (by norm_num) (by rw [hs]; norm_num)

/-- Non-vacuity of `C75_ionization`: the example file, for electron recoils and for the Migdal effect. -/
example (hT : T.integrate.Exact) {kind : String} (hk : kind = "Electron recoil" ∨ kind = "Migdal") :
    ∃ c' D, (exampleWith "DD_experiment" kind).detector sampleSetup [] = .ok (c', D) ∧ PredictsEvents sampleSetup.U T D := by
  obtain ⟨c', D, h1, h2, -⟩ := C75_ionization sampleSetup_installed sampleSetup_physical sampleSetup_nonneg hT sampleSetup_keV .start
    (c := exampleWith "DD_experiment" kind) (kind := kind) (by simp [exampleWith]) hk (example_detector _) (example_electrons _) (.inl rfl)
    (sampleSetup_installed.masses 54 (by simp)) (by norm_num) zero_le_one zero_le_one
  exact ⟨c', D, h1, h2⟩

/-- Non-vacuity of `C75_semiconductor`: the example file with silicon. -/
example (hT : T.integrate.Exact) : ∃ D, Config.detector sampleSetup (Function.update (exampleWith "DD_experiment" "Semiconductor")
    "DD_target_electron" (some (.string "Si"))) [] = .ok ([], D) ∧ PredictsEvents sampleSetup.U T D := by
  obtain ⟨l, hl, hlen⟩ := sampleSetup_installed.silicon
  obtain ⟨D, h1, h2, -⟩ := C75_semiconductor (cache := []) sampleSetup_physical sampleSetup_nonneg hT
    (c := Function.update (exampleWith "DD_experiment" "Semiconductor") "DD_target_electron" (some (.string "Si")))
    (s := ⟨1, 1, 0, 0⟩) (target := "Si") (thr := 4) (by simp [exampleWith, Function.update])
    (by constructor <;> simp [exampleConfig, exampleWith, Function.update])
    (by constructor <;> simp [exampleConfig, exampleWith, Function.update]) (.inl rfl) hl hlen (by norm_num) (by norm_num)
    zero_le_one zero_le_one
  exact ⟨D, h1, h2⟩

/-- Non-vacuity of `C75_nuclear_partial`: the example file with the CaWO₄ detector. -/
example (hT : T.integrate.Exact) (hN : NonnegIntegral T) :
    ∃ c' D, (exampleWith "DD_experiment" "Nuclear recoil").detector sampleSetup [] = .ok (c', D) ∧ PredictsEvents sampleSetup.U T D := by
  have hI := sampleSetup_installed
  obtain ⟨c', D, h1, h2, -⟩ := C75_nuclear_partial hI.nuclear hI.complete sampleSetup_physical hT hN .start
    (c := exampleWith "DD_experiment" "Nuclear recoil") (by simp [exampleWith]) (example_detector _) (example_recoils _) (by simp)
    (by simp) (by simp)
    (fun _ e he => by
      simp only [List.mem_cons, List.not_mem_nil, or_false] at he
      rcases he with rfl | rfl | rfl
      · exact hI.masses 8 (by simp)
      · exact hI.masses 20 (by simp)
      · exact hI.masses 74 (by simp)) (by norm_num) (by norm_num) zero_le_one zero_le_one
  exact ⟨c', D, h1, h2⟩

/-- The contract on the integral of an interpolation is met, for example, by the trapezoidal rule on two nodes. -/
example (T : Tools) : ∃ T' : Tools, T'.integrate = T.integrate ∧ NonnegIntegral T' :=
  ⟨{ T with interpolationIntegral := fun _ ys a b => (ys.getD 0 0 + ys.getD 1 0) / 2 * (b - a) }, rfl, fun _ ys a b hab hy => by
    have : ∀ i, 0 ≤ ys.getD i 0 := fun i => by
      by_cases hi : i < ys.length
      · simpa [List.getD, hi] using hy _ (List.getElem_mem hi)
      · simp [List.getD, not_lt.1 hi]
    have h0 := this 0; have h1 := this 1
    have : 0 ≤ b - a := by linarith
    dsimp only
    positivity⟩

end Obscura
