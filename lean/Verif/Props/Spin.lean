import Verif.Spec.Spin
import Verif.Props.Runs
import Verif.Props.Cancellation
import Verif.Props.LimitTrends

/-!
# C112: only isotopes with spin feel spin-dependent interactions
-/

namespace Obscura

open Spec NuclearDetector DMParticle

variable {U : Units} {I : Integrator} {T : Tools} {nd : NuclearDetector} {d : Detector} {p : DMParticle} {h : Distribution} {iso : Isotope}

theorem inactive_amplitude (hn : ¬ SpinActive iso) : iso.spin = 0 ∨ p.fp * iso.sp + p.fn * iso.sn = 0 := by
  unfold SpinActive at hn
  by_cases h0 : iso.spin = 0
  · exact .inl h0
  · push Not at hn
    obtain ⟨h1, h2⟩ := hn h0
    exact .inr (by rw [h1, h2]; ring)

/-- C112 (isotopes). A particle with a spin-dependent interaction passes through an isotope exactly if the isotope has no spin, or if the couplings to
the spins of its protons and neutrons cancel; the total cross section is then zero at all speeds, and positive otherwise. -/
theorem C112_isotope (hp : p.interaction = .SD) (hm : 0 < p.mass) (hM : 0 < iso.mass) (hsp : 0 ≤ iso.spin) :
    (PassesThrough U p iso ↔ iso.spin = 0 ∨ p.fp * iso.sp + p.fn * iso.sn = 0) ∧
    (PassesThrough U p iso → ∀ v, p.sigmaTotalNucleus U I iso v = .ok 0) ∧
    (¬ PassesThrough U p iso → ∀ v, ∃ s, p.sigmaTotalNucleus U I iso v = .ok s ∧ 0 < s) := by
  have hpi := Real.pi_pos
  have key : PassesThrough U p iso ↔ iso.spin = 0 ∨ p.fp * iso.sp + p.fn * iso.sn = 0 := by
    constructor
    · intro hz
      by_contra hc
      push Not at hc
      obtain ⟨h1, h2⟩ := hc
      have := (hz 0 1 0).1
      unfold dSigmadq2Nucleus at this
      simp only [hp, h1, if_false] at this
      have h3 : 0 < iso.spin := lt_of_le_of_ne hsp (Ne.symm h1)
      have : 0 < 1 / Real.pi / 1 / 1 * (iso.spin + 1) / iso.spin * (p.fp * iso.sp + p.fn * iso.sn) ^ 2 := by positivity
      linarith
    · intro h0 q v E
      have : ∀ q v, p.dSigmadq2Nucleus U q iso v = 0 := fun q v => by
        unfold dSigmadq2Nucleus
        simp only [hp]
        rcases h0 with h0 | h0
        · rw [if_pos h0]
        · rw [h0]; simp
      exact ⟨this q v, by unfold dSigmadERNucleus; rw [this, mul_zero]⟩
  refine ⟨key, fun hz v => ?_, fun hz v => ?_⟩
  · unfold sigmaTotalNucleus
    simp only [hp]
    rcases key.1 hz with h0 | h0
    · rw [if_neg (by simpa using h0)]
    · rw [h0]; simp
  · rw [key] at hz
    push Not at hz
    obtain ⟨h1, h2⟩ := hz
    have h3 : 0 < iso.spin := lt_of_le_of_ne hsp (Ne.symm h1)
    have h4 := reducedMass_pos hm hM
    refine ⟨4 * reducedMass p.mass iso.mass ^ 2 / Real.pi * (iso.spin + 1) / iso.spin * (p.fp * iso.sp + p.fn * iso.sn) ^ 2, ?_, ?_⟩
    · unfold sigmaTotalNucleus
      simp only [hp]
      rw [if_pos h1]
    · positivity

theorem inactive_passes (hp : p.interaction = .SD) (hn : ¬ SpinActive iso) : PassesThrough U p iso ∧ ∀ v, p.sigmaTotalNucleus U I iso v = .ok 0 := by
  have h0 := inactive_amplitude (p := p) hn
  have : ∀ q v, p.dSigmadq2Nucleus U q iso v = 0 := fun q v => by
    unfold dSigmadq2Nucleus
    simp only [hp]
    rcases h0 with h0 | h0
    · rw [if_pos h0]
    · rw [h0]; simp
  refine ⟨fun q v E => ⟨this q v, by unfold dSigmadERNucleus; rw [this, mul_zero]⟩, fun v => ?_⟩
  unfold sigmaTotalNucleus
  simp only [hp]
  rcases h0 with h0 | h0
  · rw [if_neg (by simpa using h0)]
  · rw [h0]; simp

/-! ## Rates -/

theorem sumOver_filter {α : Type} {f : α → Outcome ℝ} {P : α → Bool} (l : List α) (h0 : ∀ a ∈ l, P a = false → f a = .ok 0) :
    sumOver f (l.filter P) = sumOver f l := by
  have cons : ∀ (a : α) (l : List α), sumOver f (a :: l) = f a >>= fun x => sumOver f l >>= fun s => .ok (x + s) := fun a l => by
    unfold sumOver
    simp only [collect]
    cases f a with
    | ok x =>
      simp only [Outcome.bind_ok]
      cases collect f l with
      | ok xs => simp only [Outcome.bind_ok, ← List.sum_eq_foldl, List.sum_cons]
      | _ => rfl
    | _ => rfl
  induction l with
  | nil => rfl
  | cons a l ih =>
    have ih := ih fun x hx => h0 x (by simp [hx])
    cases hP : P a with
    | true => rw [List.filter_cons_of_pos hP, cons, cons, ih]
    | false =>
      rw [List.filter_cons_of_neg (by simp [hP]), cons, ih, h0 a (by simp) hP, Outcome.bind_ok]
      cases sumOver f l with
      | ok s => simp
      | _ => rfl

theorem isotope_zero (hI : I.Exact) (hz : PassesThrough U p iso) (hη : ∀ v, ∃ x, h.eta v = .ok x) (ER : ℝ) : dRdERIsotope U I ER p h iso = .ok 0 := by
  unfold dRdERIsotope
  dsimp only
  simp only [fun v => (hz 0 v ER).2]
  split_ifs
  · rfl
  · obtain ⟨x, hx⟩ := hη (vMinimalNucleus ER p.mass iso.mass)
    rw [hx]
    simp
  · rw [hI]
    simp

/-- C112 (elements). The recoil spectrum of an element is that of its isotopes with spin. -/
theorem C112_nucleus (hI : I.Exact) (hp : p.interaction = .SD) (hη : ∀ v, ∃ x, h.eta v = .ok x) (ER : ℝ) (n : Nucleus) :
    dRdERNucleus U I ER p h n = dRdERNucleus U I ER p h (activeOnly n) := by
  classical
  unfold dRdERNucleus activeOnly
  refine (sumOver_filter _ fun iso _ hP => ?_).symm
  rw [isotope_zero hI (inactive_passes (I := I) hp (by simpa using hP)).1 hη, Outcome.bind_ok, mul_zero]

theorem theoryRate_active (hI : I.Exact) (hp : p.interaction = .SD) (hη : ∀ v, ∃ x, h.eta v = .ok x) (E ER : ℝ) :
    nd.theoryRate U I d E ER p h = (activeTarget nd).theoryRate U I d E ER p h := by
  unfold NuclearDetector.theoryRate activeTarget
  rw [List.length_map]
  refine sumOver_congr fun i hi => ?_
  have hi : i < nd.nuclei.length := List.mem_range.1 hi
  have e1 : vecGet nd.nuclei i = .ok nd.nuclei[i] := by simp [vecGet, hi]
  have e2 : vecGet (nd.nuclei.map activeOnly) i = .ok (activeOnly nd.nuclei[i]) := by simp [vecGet, hi]
  have e3 : NuclearDetector.efficiency { nd with nuclei := nd.nuclei.map activeOnly } i E = nd.efficiency i E := by
    simp [NuclearDetector.efficiency]
  simp only [e1, e2, e3, Outcome.bind_ok, C112_nucleus hI hp hη ER nd.nuclei[i]]

/-- C112 (detectors). For spin-dependent interactions the recoil spectrum of a detector, at all energies and with every resolution and efficiency, is
that of the isotopes with spin alone. -/
theorem C112_rate (hI : I.Exact) (hp : p.interaction = .SD) (hη : ∀ v, ∃ x, h.eta v = .ok x) (E : ℝ) :
    nd.dRdE U I d E p h = (activeTarget nd).dRdE U I d E p h := by
  unfold NuclearDetector.dRdE
  simp only [theoryRate_active (nd := nd) hI hp hη]
  rfl

/-! ## Kinematics -/

theorem isotopes_active (nd : NuclearDetector) :
    (activeTarget nd).isotopes = open Classical in nd.isotopes.filter fun iso => SpinActive iso := by
  classical
  unfold NuclearDetector.isotopes activeTarget
  dsimp only
  induction nd.nuclei with
  | nil => rfl
  | cons n l ih => rw [List.map_cons, List.flatMap_cons, List.flatMap_cons, List.filter_append, ih]; rfl

theorem depositLoop_filter {P : Isotope → Bool} {vMax : ℝ} (l : List Isotope) (h0 : ∀ iso ∈ l, P iso = false → p.sigmaTotalNucleus U I iso vMax = .ok 0)
    (E : ℝ) : depositLoop U I p vMax (l.filter P) E = depositLoop U I p vMax l E := by
  induction l generalizing E with
  | nil => rfl
  | cons a l ih =>
    have ih := ih fun x hx => h0 x (by simp [hx])
    cases hP : P a with
    | true => rw [List.filter_cons_of_pos hP]; simp only [depositLoop, ih]
    | false =>
      rw [List.filter_cons_of_neg (by simp [hP]), ih]
      simp only [depositLoop, h0 a (by simp) hP, Outcome.bind_ok, lt_irrefl, if_false, ite_self]

theorem speedLoop_filter {P : Isotope → Bool} {E : ℝ} (l : List Isotope) (h0 : ∀ iso ∈ l, P iso = false → ∀ v, p.sigmaTotalNucleus U I iso v = .ok 0)
    (v : ℝ) : speedLoop U I p E (l.filter P) v = speedLoop U I p E l v := by
  induction l generalizing v with
  | nil => rfl
  | cons a l ih =>
    have ih := ih fun x hx => h0 x (by simp [hx])
    cases hP : P a with
    | true => rw [List.filter_cons_of_pos hP]; simp only [speedLoop, ih]
    | false =>
      rw [List.filter_cons_of_neg (by simp [hP]), ih]
      simp only [speedLoop, h0 a (by simp) hP, Outcome.bind_ok, lt_irrefl, if_false, ite_self]

theorem massLoop_filter {P : Isotope → Bool} {E vMax : ℝ} (l : List Isotope) (h0 : ∀ iso ∈ l, P iso = false → p.sigmaTotalNucleus U I iso vMax = .ok 0) :
    massLoop U I p E vMax (l.filter P) = massLoop U I p E vMax l := by
  induction l with
  | nil => rfl
  | cons a l ih =>
    have ih := ih fun x hx => h0 x (by simp [hx])
    cases hP : P a with
    | true => rw [List.filter_cons_of_pos hP]; simp only [massLoop, ih]
    | false =>
      rw [List.filter_cons_of_neg (by simp [hP]), ih]
      simp only [massLoop, h0 a (by simp) hP, Outcome.bind_ok, lt_irrefl, if_false]

/-- C112 (kinematics). The largest energy deposit, the smallest observable mass and the smallest speed are those of the isotopes with spin. -/
theorem C112_kinematics (hp : p.interaction = .SD) :
    nd.maximumEnergyDeposit U I p h = (activeTarget nd).maximumEnergyDeposit U I p h ∧
    nd.minimumDMMass U I d p h = (activeTarget nd).minimumDMMass U I d p h ∧
    nd.minimumDMSpeed U I d p = (activeTarget nd).minimumDMSpeed U I d p := by
  classical
  have h0 : ∀ iso ∈ nd.isotopes, (decide (SpinActive iso)) = false → ∀ v, p.sigmaTotalNucleus U I iso v = .ok 0 := fun iso _ hn =>
    (inactive_passes (I := I) (U := U) hp (by simpa using hn)).2
  refine ⟨?_, ?_, ?_⟩
  · unfold NuclearDetector.maximumEnergyDeposit
    rw [isotopes_active, depositLoop_filter _ fun iso hi hn => h0 iso hi hn _]
    rfl
  · unfold NuclearDetector.minimumDMMass
    rw [isotopes_active, massLoop_filter _ fun iso hi hn => h0 iso hi hn _]
    rfl
  · unfold NuclearDetector.minimumDMSpeed
    rw [isotopes_active, speedLoop_filter _ h0]
    rfl

/-! ## Experiments -/

/-- C112 (events and p-values). Predicted numbers of events, in total and in bins, and p-values of all kinds of analyses are those of the isotopes with
spin. -/
theorem C112_events (hI : T.integrate.Exact) (hp : p.interaction = .SD) (hη : ∀ v, ∃ x, h.eta v = .ok x) :
    (nd.toClass U T h).signalsTotal d p = ((activeTarget nd).toClass U T h).signalsTotal d p ∧
    (nd.toClass U T h).signalsBinned d p = ((activeTarget nd).toClass U T h).signalsBinned d p ∧
    d.pValue U T (nd.toClass U T h) p = d.pValue U T ((activeTarget nd).toClass U T h) p := by
  have h1 : ∀ d E, nd.dRdE U T.integrate d E p h = (activeTarget nd).dRdE U T.integrate d E p h := fun d E => C112_rate hI hp hη E
  have h2 := (C112_kinematics (U := U) (I := T.integrate) (nd := nd) (d := d) (h := h) hp).1
  have e1 : (nd.toClass U T h).signalsTotal d p = ((activeTarget nd).toClass U T h).signalsTotal d p := by
    simp only [NuclearDetector.toClass, DetectorClass.base, Detector.baseSignalsTotal, Detector.baseSignalsBinned, Detector.signalsEnergyBins, h1]
  have e2 : (nd.toClass U T h).signalsBinned d p = ((activeTarget nd).toClass U T h).signalsBinned d p := by
    simp only [NuclearDetector.toClass, DetectorClass.base, Detector.baseSignalsBinned, Detector.signalsEnergyBins, h1]
  have e3 : ∀ E, (nd.toClass U T h).dRdE d E p = ((activeTarget nd).toClass U T h).dRdE d E p := fun E => by
    simp only [NuclearDetector.toClass, DetectorClass.base, h1]
  have e4 : (nd.toClass U T h).maximumEnergyDeposit p = ((activeTarget nd).toClass U T h).maximumEnergyDeposit p := h2
  refine ⟨e1, e2, ?_⟩
  unfold Detector.pValue Detector.pValueMaximumGap
  simp only [e1, e2, e3, e4]

/-- C112 (blind targets). A counting experiment without isotopes with spin predicts no events, and `Upper_Limit` reports that there is no limit. Missing for the full claim: the case that the background alone has exactly the p-value `1 - CL`. -/
theorem C112_blind_partial {c0 : ℝ} (hI : T.integrate.Exact)
    (hP : ∀ k xs (ys : List ℝ) x y, T.interpolationIntegral xs (ys.map fun z => k * z) x y = k * T.interpolationIntegral xs ys x y)
    (hr : Reachable U p) (hp : p.interaction = .SD) (hη : ∀ v, ∃ x, h.eta v = .ok x) (hlen : nd.nuclei.length ≤ nd.fractions.length)
    (hiso : ∀ iso ∈ nd.isotopes, ¬ SpinActive iso) (hd : ReachableDetector d) (h1 : 0 < d.energyThreshold) (h2 : 0 < d.energyMax)
    (ha : d.analysis = .poisson) (hb : 0 ≤ d.background) (hc0 : p.getInteractionParameter U d.targets = .ok c0) (h0 : 0 < c0)
    {cert : ℝ} (hcert : probAtMost d.background d.observed ≠ 1 - cert) :
    (∀ E, nd.dRdE U T.integrate d E p h = .ok 0) ∧ (nd.toClass U T h).signalsTotal d p = .ok 0 ∧
    ∃ p', d.upperLimit U T (nd.toClass U T h) p cert = .ok (d, p', -1) := by
  have hz : ∀ E, nd.dRdE U T.integrate d E p h = .ok 0 := fun E =>
    C97_no_events hI (fun iso hi => (inactive_passes (I := T.integrate) hp (hiso iso hi)).1) hη hlen E
  have hs : (nd.toClass U T h).signalsTotal d p = .ok 0 := by
    simp only [NuclearDetector.toClass, DetectorClass.base, Detector.baseSignalsTotal]
    rw [if_neg (by rw [ha]; simp), if_neg (by push Not; exact ⟨h1, h2⟩)]
    simp only [hz, Outcome.valueOr0]
    have := hP 0 (logSpace d.energyThreshold d.energyMax 200) ((logSpace d.energyThreshold d.energyMax 200).map fun _ => 0) d.energyThreshold d.energyMax
    rw [List.map_map, zero_mul] at this
    rw [show (fun _ : ℝ => (0 : ℝ)) = (fun z => 0 * z) ∘ fun _ => 0 from by funext; simp, this, mul_zero]
  refine ⟨hz, hs, ?_⟩
  obtain ⟨p', g⟩ := limit_poisson (U := U) (T := T) (Detector.reachable_sound hd) (reachable_inv hr)
    (fun u c t ss => (class_config (.nuclear d nd) d p u c t ss).1) hc0 h0.ne' ha hs cert
  refine ⟨p', g.trans ?_⟩
  simp only [mul_zero, zero_add]
  rw [if_pos]
  rw [← cdfPoisson_eq_probAtMost hb] at hcert
  exact mul_self_pos.2 (sub_ne_zero.2 hcert)

/-- C112 (failure: limit curves). Without isotopes with spin `Upper_Limit_Curve` dereferences the minimum of an empty list, for all lists of masses,
instead of returning an empty curve. -/
theorem C112_fails_curve (hp : p.interaction = .SD) (hiso : ∀ iso ∈ nd.isotopes, ¬ SpinActive iso) (masses : List ℝ) (cert : ℝ) :
    d.upperLimitCurve U T (nd.toClass U T h) p masses cert = .ub := by
  classical
  have : nd.minimumDMMass U T.integrate d p h = .ub := by
    rw [(C112_kinematics (d := d) hp).2.1]
    unfold NuclearDetector.minimumDMMass
    rw [isotopes_active, List.filter_eq_nil_iff.2 fun iso hi => by simpa using hiso iso hi]
    rfl
  unfold Detector.upperLimitCurve
  rw [show (nd.toClass U T h).minimumDMMass d p = .ub from this]
  rfl

section

open FileSystem

variable {E : Platform} {fs : FileSystem} {f : Name} {args : List Name} {text : List Char} {c : Config} {ID : String} {top : List Name}
  {rows : List NuclearRow}

/-- C112 (failure: the program). A run for nuclear recoils, a spin-dependent interaction and elements none of whose isotopes has a spin ends in undefined
behaviour, and no limits are written. -/
theorem C112_fails_run (hr : fs.read E.R.cwd f = some text) (hp : E.parse text = some c) (hID : c "ID" = some (.string ID))
    (hn : PlainName ID.toList) (ht : TopAt E.R fs top) {cert lo hi : ℝ} {n : ℤ} (hL : DescribesLimits c cert lo hi n) (hl : SensibleLimits cert lo hi n)
    {s : ParticleSettings} (hs : DescribesParticle c s) (hsens : SensibleParticle E.S.U s) {t : DetectorSettings}
    {hs' : HaloSettings} (hk : c "DM_distribution" = some (.string "SHM")) (hhalo : DescribesHalo c hs') (hd : 0 ≤ hs'.density)
    (h0 : 0 < hs'.v0) (he : 0 < hs'.vesc) (ho : √(hs'.vx ^ 2 + hs'.vy ^ 2 + hs'.vz ^ 2) ≤ hs'.vesc) (hdet : DescribesDetector c t)
    (hnuc : E.S.files.nuclear = some rows) (hw : WellFormed rows) (hkind : c "DD_experiment" = some (.string "Nuclear recoil")) {r : RecoilSettings}
    (hrec : DescribesRecoils c r) (hne : r.composition ≠ []) (hZ : ∀ e ∈ r.composition, 1 ≤ e.1 ∧ e.1 ≤ 92) (hx : ∀ e ∈ r.composition, 0 ≤ e.2)
    (hm : 1 < (r.composition.map Prod.snd).sum → ∀ e ∈ r.composition, 0 < (element E.S.U rows e.1).averageMass) (hE : r.threshold ≤ r.highest)
    (hint : s.interaction = "SD") (hspin : ∀ e ∈ r.composition, ∀ iso ∈ (element E.S.U rows e.1).isotopes, ¬ SpinActive iso) :
    (Program.main E (f :: args) fs).2 = .ub ∧
    ∀ k, (Program.main E (f :: args) fs).1 (constraintsPlace top ID.toList k) = fs (constraintsPlace top ID.toList k) := by
  obtain ⟨h, k1, -⟩ := C75_standard_halo (U := E.S.U) E.N E.speeds hk hhalo hd h0 he ho
  obtain ⟨c', d, x, k3, -, -, -, -, -, j3, -⟩ := C70_nuclear hnuc hw .start hkind hdet hrec hne hZ
    (fun h e he => ⟨hx e he, hm h e he⟩) hE
  obtain ⟨p, hp1, -⟩ :=
    C53_particle_partial (U := E.S.U) hs hsens.interaction hsens.mass hsens.nucleon.le hsens.couplings
  have hSD := (particle_interaction hs hsens hp1).1 hint
  have hiso : ∀ iso ∈ x.isotopes, ¬ SpinActive iso := fun iso hi => by
    unfold NuclearDetector.isotopes at hi
    rw [j3] at hi
    obtain ⟨nuc, hnu, hi⟩ := List.mem_flatMap.1 hi
    obtain ⟨e, he, rfl⟩ := List.mem_map.1 hnu
    exact hspin e he iso hi
  have hmake := (C71_object E.R E.S E.N E.speeds E.parse fs [] c' f 0
    ⟨f, ID.toList, E.R.top ++ ("results/" ++ ID ++ "/").toList, p, h, .nuclear d x, cert, lo, hi, n.toNat⟩).2
    ⟨text, c, ID, hr, hp, hID, hp1, k1, k3, ⟨n, hL, rfl⟩, rfl, rfl, rfl⟩
  have hend : (Program.main E (f :: args) fs).2 = .ub := by
    simp only [Program.main]
    generalize Configuration.make E.R E.S E.N E.speeds E.parse fs [] f 0 = r' at hmake
    obtain ⟨g, r'⟩ := r'
    dsimp only at hmake
    subst hmake
    have hl' : Program.limits E ⟨f, ID.toList, E.R.top ++ ("results/" ++ ID ++ "/").toList, p, h, .nuclear d x, cert, lo, hi, n.toNat⟩ = .ub := by
      unfold Program.limits Program.masses
      dsimp only
      rw [if_pos ⟨hl.lowest, hl.highest, by have := hl.masses; omega⟩, Outcome.bind_ok]
      rw [show (AnyDetector.nuclear d x).base.upperLimitCurve E.S.U E.T ((AnyDetector.nuclear d x).toClass E.S.U E.T h) p
          (logSpace lo hi n.toNat) cert = .ub from C112_fails_curve hSD hiso _ _]
      rfl
    obtain ⟨out, ho⟩ := configuration_summary (S := E.S) (halo := [])
      (o := ⟨f, ID.toList, E.R.top ++ ("results/" ++ ID ++ "/").toList, p, h, .nuclear d x, cert, lo, hi, n.toNat⟩)
      (configured_summary k3 fun name hx => by rw [hkind] at hx; cases hx; decide)
    dsimp only
    rw [ho]
    dsimp only
    rw [hl']
  refine ⟨hend, fun k => C74_failed_run_partial hr hp hID hn ht (by rw [hend]; simp) ?_ ?_ ?_⟩
  · intro h; have := congrArg List.length h; simp [constraintsPlace, runPlace] at this; omega
  · intro h; have := congrArg List.length h; simp [constraintsPlace] at this
  · intro h
    have h := (List.cons.inj h).1
    simp only [String.toList_append] at h
    have := congrArg List.getLast? h
    rw [show ".txt".toList = ['.', 't', 'x'] ++ ['t'] from rfl, show ".cfg".toList = ['.', 'c', 'f'] ++ ['g'] from rfl, ← List.append_assoc,
      ← List.append_assoc, List.getLast?_concat, List.getLast?_concat] at this
    simp at this

end

/-! ## The data file of the project -/

/-- The elements of `data/Nuclear_Data.txt` that are invisible for all spin-dependent interactions, because the file has no isotope of them with a spin
and an average spin of protons or neutrons. -/
def blindElements : List ℕ :=
  [16, 18, 20, 21, 24, 26, 28, 29, 34, 36, 37, 38, 39, 42, 43, 45, 46, 58, 59, 60, 61, 62, 63, 65, 66, 67, 68, 69, 70, 71, 72, 73, 75, 76, 78, 79, 84, 85,
    86, 87, 88, 89, 90, 91, 92]

theorem row_active (U : Units) (r : RawRow) : SpinActive (isotopeOf U r.toRow) ↔ r.twoSpin ≠ 0 ∧ (r.sp ≠ 0 ∨ r.sn ≠ 0) := by
  unfold SpinActive isotopeOf RawRow.toRow
  simp

/-- C112 (shipped data). With the data file of the project, these are exactly the elements without isotopes that feel spin-dependent interactions: of 92
elements 45, among them argon, calcium, iron, copper and gold. -/
theorem C112_shipped (U : Units) {Z : ℕ} (h1 : 1 ≤ Z) (h2 : Z ≤ 92) :
    (∀ iso ∈ (element U shippedTable Z).isotopes, ¬ SpinActive iso) ↔ Z ∈ blindElements := by
  have key : (∀ iso ∈ (element U shippedTable Z).isotopes, ¬ SpinActive iso) ↔
      (shippedRows.all fun r => !(r.Z == Z) || (r.twoSpin == 0 || (r.sp == 0 && r.sn == 0))) = true := by
    rw [List.all_eq_true]
    constructor
    · intro h r hr
      by_cases hZ : r.Z = Z
      · have := h (isotopeOf U r.toRow) (List.mem_map.2 ⟨r.toRow, List.mem_filter.2 ⟨List.mem_map.2 ⟨r, hr, rfl⟩, by simp [RawRow.toRow, hZ]⟩, rfl⟩)
        rw [row_active] at this
        simp only [hZ, beq_self_eq_true, Bool.not_true, Bool.false_or, Bool.or_eq_true, Bool.and_eq_true, beq_iff_eq]
        tauto
      · simp [hZ]
    · intro h iso hi
      obtain ⟨row, hrow, rfl⟩ := List.mem_map.1 hi
      obtain ⟨hrow, hZ⟩ := List.mem_filter.1 hrow
      obtain ⟨r, hr, rfl⟩ := List.mem_map.1 hrow
      have hZ : r.Z = Z := of_decide_eq_true hZ
      have := h r hr
      rw [row_active]
      simp only [hZ, beq_self_eq_true, Bool.not_true, Bool.false_or, Bool.or_eq_true, Bool.and_eq_true, beq_iff_eq] at this
      tauto
  rw [key]
  have all : ∀ Z ∈ List.range 93, 1 ≤ Z → ((shippedRows.all fun r => !(r.Z == Z) || (r.twoSpin == 0 || (r.sp == 0 && r.sn == 0))) = true ↔
      Z ∈ blindElements) := by decide +kernel
  exact all Z (List.mem_range.2 (by omega)) h1

/-! ## Non-vacuity -/

/-- A reachable particle with spin-dependent interactions. -/
theorem spinParticle (U : Units) : ∃ p c0, Reachable U p ∧ p.interaction = .SD ∧ 0 < p.mass ∧ p.fp = p.fn ∧ p.fp ≠ 0 ∧
    p.getInteractionParameter U "Nuclei" = .ok c0 ∧ 0 < c0 := by
  obtain ⟨c, hc, he⟩ := makeSD1_start (U := U)
  have hm : 0 < 10 * U.GeV := by have := U.GeV_pos; positivity
  have hmu := reducedMass_pos hm U.mProton_pos
  have hpi := Real.pi_pos
  refine ⟨{ standard U (10 * U.GeV) 3 .SD with fp := c, fn := c }, _, ⟨_, [], .inr ⟨_, _, hm, he⟩, by simp, rfl⟩, rfl, hm, rfl, hc,
    (if_pos rfl).trans (if_pos (by norm_num [standard])), ?_⟩
  · simp only [sigmaProton, standard]
    have : 0 < c * c := mul_self_pos.2 hc
    have h2 : (3 : ℝ) * c * c = 3 * (c * c) := by ring
    rw [h2]
    positivity

/-- Non-vacuity of `C112_isotope`, `C112_rate` and `C112_events`: of two isotopes of one element the particle meets one and passes through the other. -/
example : ∃ (p : DMParticle) (i j : Isotope) (nd : NuclearDetector), Reachable U p ∧ p.interaction = .SD ∧ 0 < p.mass ∧
    (∀ v, ∃ x, sampleHalo.eta v = .ok x) ∧ nd.isotopes = [i, j] ∧ (activeTarget nd).isotopes = [i] ∧
    (∀ v, ∃ s, p.sigmaTotalNucleus U I i v = .ok s ∧ 0 < s) ∧ ∀ v, p.sigmaTotalNucleus U I j v = .ok 0 := by
  classical
  obtain ⟨p, c0, hr, hp, hm, hf, hf0, -, -⟩ := spinParticle U
  have hi : SpinActive sampleIsotope := by norm_num [SpinActive, sampleIsotope]
  have hj : ¬ SpinActive ⟨1, 2, 1 / 2, 0, 0, 0, 2⟩ := by norm_num [SpinActive]
  refine ⟨p, sampleIsotope, ⟨1, 2, 1 / 2, 0, 0, 0, 2⟩, ⟨[⟨some 1, [sampleIsotope, ⟨1, 2, 1 / 2, 0, 0, 0, 2⟩], "H"⟩], [1], 0, false, []⟩,
    hr, hp, hm, fun v => ⟨_, rfl⟩, rfl, ?_, ?_, (inactive_passes (I := I) (U := U) hp hj).2⟩
  · rw [isotopes_active]
    show List.filter _ [sampleIsotope, _] = _
    rw [List.filter_cons_of_pos (by simpa using hi), List.filter_cons_of_neg (by simpa using hj)]
    rfl
  · have h := C112_isotope (U := U) (I := I) (iso := sampleIsotope) hp hm (by norm_num [sampleIsotope]) (by norm_num [sampleIsotope])
    refine h.2.2 fun hc => ?_
    rcases h.1.1 hc with h1 | h1
    · norm_num [sampleIsotope] at h1
    · simp [sampleIsotope, hf0] at h1

/-- Non-vacuity of `C112_blind_partial` and `C112_fails_curve`: a detector of a spinless isotope that saw nothing and expects no background. -/
example (hI : T.integrate.Exact) (hP : ∀ k xs (ys : List ℝ) x y,
      T.interpolationIntegral xs (ys.map fun z => k * z) x y = k * T.interpolationIntegral xs ys x y) :
    ∃ (p : DMParticle) (nd : NuclearDetector) (d : Detector), Reachable U p ∧ ReachableDetector d ∧ (∃ iso, iso ∈ nd.isotopes) ∧
      (nd.toClass U T sampleHalo).signalsTotal d p = .ok 0 ∧ (∃ p', d.upperLimit U T (nd.toClass U T sampleHalo) p 0.95 = .ok (d, p', -1)) ∧
      d.upperLimitCurve U T (nd.toClass U T sampleHalo) p [1, 2] 0.95 = .ub := by
  obtain ⟨p, c0, hr, hp, hm, hf, hf0, hc, hc0⟩ := spinParticle U
  set iso : Isotope := ⟨2, 4, 1, 0, 0, 0, 4⟩ with hiso
  have hn : ∀ i ∈ (⟨[⟨some 2, [iso], "He"⟩], [1], 0, false, []⟩ : NuclearDetector).isotopes, ¬ SpinActive i := by
    intro i hi
    simp only [NuclearDetector.isotopes, List.flatMap_cons, List.flatMap_nil, List.append_nil, List.mem_cons, List.not_mem_nil, or_false] at hi
    subst hi
    norm_num [SpinActive, hiso]
  have hd : ReachableDetector { Detector.make "x" 1 "Nuclei" with usingEnergyThreshold := true, energyThreshold := 1, energyMax := 2 } :=
    .inl ⟨_, [.useEnergyThreshold 1 2], ⟨"x", 1, "Nuclei", rfl⟩,
      by simp [Detector.run, Detector.step, Detector.make, Detector.useEnergyThreshold, Detector.initializePoisson]⟩
  have h := C112_blind_partial (d := { Detector.make "x" 1 "Nuclei" with usingEnergyThreshold := true, energyThreshold := 1, energyMax := 2 }) (h := sampleHalo) (cert := 0.95)
    hI hP hr hp (fun v => ⟨_, rfl⟩) (by simp) hn hd one_pos two_pos rfl (by norm_num [Detector.make]) hc hc0
    (by
      show probAtMost 0 0 ≠ _
      rw [← cdfPoisson_eq_probAtMost le_rfl]
      norm_num [cdfPoisson])
  exact ⟨p, _, _, hr, hd, ⟨iso, by simp [NuclearDetector.isotopes]⟩, h.2.1, h.2.2, C112_fails_curve hp hn _ _⟩

/-- The configuration of `nuclearConfig` with spin-dependent interactions and a detector of argon. -/
noncomputable def argonConfig : Config :=
  Function.update (Function.update (nuclearConfig "Contact") "DM_interaction" (some (.string "SD"))) "DD_targets_nuclear"
    (some (.list [.list [.float 1, .int 18]]))

/-- Non-vacuity of `C112_fails_run`: argon and spin-dependent interactions. -/
example {T : Tools} : (Program.main { samplePlatform T with parse := fun _ => some argonConfig } [['a']] sampleFiles).2 = .ub := by
  have hs : √((0 : ℝ) ^ 2 + 232 ^ 2 + 0 ^ 2) = 232 := by
    rw [show (0 : ℝ) ^ 2 + 232 ^ 2 + 0 ^ 2 = 232 ^ 2 by norm_num]; exact Real.sqrt_sq (by norm_num)
  have hI := sampleSetup_installed
  exact (C112_fails_run (E := { samplePlatform T with parse := fun _ => some argonConfig }) (text := ['x'])
    (rows := shippedTable) (s := { nuclearParticle "Contact" with interaction := "SD" })
    (c := argonConfig) (ID := "test") (cert := 0.95) (lo := 0.02) (hi := 1) (n := 10) (args := [])
    (by show sampleFiles.read sampleInstallation.cwd ['a'] = _; decide) rfl
    (by simp [argonConfig, nuclearConfig, exampleConfig, exampleWith, Function.update]) (by unfold PlainName; decide) sampleTop
    (by constructor <;> simp [argonConfig, nuclearConfig, exampleConfig, exampleWith, Function.update])
    ⟨by norm_num, by norm_num, by norm_num, by norm_num⟩
    (by constructor <;> simp [argonConfig, nuclearConfig, nuclearParticle, exampleConfig, exampleWith, Function.update])
    ⟨.inl rfl, by norm_num [nuclearParticle], by norm_num [nuclearParticle], by norm_num [nuclearParticle], by norm_num [nuclearParticle],
      by norm_num [nuclearParticle]⟩ (t := ⟨1, 1, 0, 0⟩)
    (hs' := ⟨0.4, 220, 0, 232, 0, 544⟩) (by simp [argonConfig, nuclearConfig, exampleConfig, exampleWith, Function.update])
    (by constructor <;> simp [argonConfig, nuclearConfig, exampleConfig, exampleWith, Function.update]) (by norm_num) (by norm_num)
    (by norm_num) (by rw [hs]; norm_num) (by constructor <;> simp [argonConfig, nuclearConfig, exampleConfig, exampleWith, Function.update])
    hI.nuclear hI.complete (by simp [argonConfig, nuclearConfig, exampleWith, Function.update])
    (r := ⟨[(18, 1)], 4, 40, 0⟩)
    (by constructor <;> simp [argonConfig, nuclearConfig, exampleConfig, exampleWith, Function.update]) (by simp) (by simp) (by simp)
    (by simp) (by norm_num) rfl (fun e he => by
      simp only [List.mem_cons, List.not_mem_nil, or_false] at he
      subst he
      exact (C112_shipped _ (by norm_num) (by norm_num)).2 (by decide))).1

end Obscura
