import Verif.Lemmas.Exposure
import Verif.Spec.Density

/-!
# Helper lemmas: signals in a halo of a different density
-/

namespace Obscura
open Spec

variable {U : Units} {T : Tools} {I : Integrator} {h : Distribution} {p : DMParticle} {d : Detector} {k : ℝ}

/-! ## Signals of two rates, one a multiple of the other -/

theorem energyBins_of_rates {C C' : DetectorClass} (hI : T.integrate.Homogeneous) (hr : ∀ E, C'.dRdE d E p = k * C.dRdE d E p) :
    d.signalsEnergyBins T C' p = d.signalsEnergyBins T C p >>= fun ss => .ok (ss.map fun s => k * s) := by
  unfold Detector.signalsEnergyBins
  split_ifs
  · rfl
  · refine collect_scale k fun i _ => ?_
    cases vecGet d.binEnergies i <;> simp [Outcome.scale]
    cases vecGet d.binEnergies (i + 1) <;> simp
    cases vecGet d.binEfficiencies i <;> simp
    rw [show (fun E => C'.dRdE d E p) = fun E => k * C.dRdE d E p from funext hr, hI]
    ring

theorem base_of_rates {A A' : DMParticle → Outcome ℝ} {B B' : Detector → DMParticle → Outcome ℝ} {r r' : Detector → ℝ → DMParticle → ℝ}
    (hI : T.integrate.Homogeneous)
    (hP : ∀ k xs (ys : List ℝ) x y, T.interpolationIntegral xs (ys.map fun z => k * z) x y = k * T.interpolationIntegral xs ys x y)
    (hr : ∀ E, r' d E p = k * r d E p) :
    (DetectorClass.base T A' B' r').signalsTotal d p = (DetectorClass.base T A B r).signalsTotal d p >>= (fun s => .ok (k * s)) ∧
    (DetectorClass.base T A' B' r').signalsBinned d p =
      (DetectorClass.base T A B r).signalsBinned d p >>= fun ss => .ok (ss.map fun s => k * s) := by
  have hbin : ∀ C C' : DetectorClass, C.dRdE = r → C'.dRdE = r' →
      d.baseSignalsBinned T C' p = d.baseSignalsBinned T C p >>= fun ss => .ok (ss.map fun s => k * s) := by
    intro C C' hC hC'
    unfold Detector.baseSignalsBinned
    split_ifs
    · rfl
    · exact energyBins_of_rates hI (by rw [hC, hC']; exact hr)
    · rfl
  refine ⟨?_, hbin _ _ rfl rfl⟩
  simp only [DetectorClass.base]
  unfold Detector.baseSignalsTotal
  split_ifs
  · simp only
    rw [hbin { maximumEnergyDeposit := A, minimumDMMass := B, dRdE := r, signalsTotal := fun _ _ => .exit, signalsBinned := fun _ _ => .exit } _ rfl rfl]
    generalize Detector.baseSignalsBinned T _ d p = o
    cases o <;> simp [foldl_add_eq_sum, sum_map_mul]
  · rfl
  · simp only [Outcome.bind_ok, Outcome.ok.injEq]
    rw [show (fun E => r' d E p) = fun E => k * r d E p from funext hr,
      show ∀ l : List ℝ, (l.map fun E => k * r d E p) = (l.map fun E => r d E p).map fun z => k * z by simp, hP]
    ring

namespace IonizationDetector

variable {S S' : ShellRate} {x : IonizationDetector}

theorem dRdE_of_rates (hS : ∀ E n e, S' d E p n e = (S d E p n e).scale k) (E : ℝ) : x.dRdE S' d E p = (x.dRdE S d E p).scale k := by
  refine sumOver_scale k fun i _ => ?_
  cases vecGet x.atoms i <;> simp [Outcome.scale]
  cases vecGet x.fractions i <;> simp
  rename_i b g
  rw [show dRdEAtom S' d E p b = (dRdEAtom S d E p b).scale k from sumOver_scale k fun e _ => hS E b.nucleus e]
  cases dRdEAtom S d E p b <;> simp [Outcome.scale]
  ring

theorem rNe_of_rates (hS : ∀ E n e, S' d E p n e = (S d E p n e).scale k) (ne : ℕ) : x.rNe U S' d ne p = (x.rNe U S d ne p).scale k := by
  refine sumOver_scale k fun i _ => ?_
  cases vecGet x.atoms i <;> simp [Outcome.scale]
  cases vecGet x.fractions i <;> simp
  rename_i b g
  have : rNeAtom U S' d ne p b = (rNeAtom U S d ne p b).scale k := by
    refine sumOver_scale k fun e _ => sumOver_scale k fun y _ => ?_
    dsimp only
    cases pdfNe ne (y * y / 2 / U.mElectron) b.W e.secondaries <;> simp [Outcome.scale]
    rw [hS]
    cases S d (y * y / 2 / U.mElectron) p b.nucleus e <;> simp [Outcome.scale]
    ring
  rw [this]
  cases rNeAtom U S d ne p b <;> simp [Outcome.scale]
  ring

theorem spectrum_of_rates (hS : ∀ E n e, S' d E p n e = (S d E p n e).scale k) (l : List ℕ) :
    collect (fun ne => x.rNe U S' d ne p) l = collect (fun ne => x.rNe U S d ne p) l >>= fun xs => .ok (xs.map fun y => k * y) :=
  collect_scale k fun ne _ => rNe_of_rates hS ne

theorem rS2_of_rates (hS : ∀ E n e, S' d E p n e = (S d E p n e).scale k) (nPE : ℕ) (l : List ℝ) :
    x.rS2 U S' d nPE p (l.map fun y => k * y) = (x.rS2 U S d nPE p l).scale k := by
  unfold rS2
  rw [spectrum_of_rates hS, List.isEmpty_map]
  cases l.isEmpty
  · simp only [Bool.false_eq_true, if_false, Outcome.bind_ok]
    exact rS2Aux_scale ..
  · simp only [if_true]
    generalize collect _ _ = o
    cases o <;> try rfl
    exact rS2Aux_scale ..

theorem rS2Bin_of_rates (hS : ∀ E n e, S' d E p n e = (S d E p n e).scale k) (lo hi : ℕ) (l : List ℝ) :
    x.rS2Bin U S' d lo hi p (l.map fun y => k * y) = (x.rS2Bin U S d lo hi p l).scale k := by
  have key : ∀ l : List ℝ, sumOver (fun nPE => do
      let eff ← x.peEfficiency nPE
      let r ← x.rS2 U S' d nPE p (l.map fun y => k * y)
      .ok (eff * r)) (List.range' lo (hi + 1 - lo)) = (sumOver (fun nPE => do
      let eff ← x.peEfficiency nPE
      let r ← x.rS2 U S d nPE p l
      .ok (eff * r)) (List.range' lo (hi + 1 - lo))).scale k := fun l => by
    refine sumOver_scale k fun nPE _ => ?_
    cases x.peEfficiency nPE <;> simp [Outcome.scale]
    rw [rS2_of_rates hS]
    cases x.rS2 U S d nPE p l <;> simp [Outcome.scale]
    ring
  unfold rS2Bin
  rw [spectrum_of_rates hS, List.isEmpty_map]
  cases l.isEmpty
  · simp only [Bool.false_eq_true, if_false, Outcome.bind_ok]
    exact key l
  · simp only [if_true]
    generalize collect _ _ = o
    cases o <;> try rfl
    exact key _

theorem signalsBinned_of_rates {h' : Distribution} (hI : T.integrate.Homogeneous) (hS : ∀ E n e, S' d E p n e = (S d E p n e).scale k) :
    x.signalsBinned U S' T d p h' = x.signalsBinned U S T d p h >>= fun ss => .ok (ss.map fun s => k * s) := by
  unfold signalsBinned
  by_cases h1 : d.analysis ≠ .binnedPoisson
  · rw [if_pos h1, if_pos h1]; rfl
  rw [if_neg h1, if_neg h1]
  by_cases h2 : d.usingEnergyBins = true
  · rw [if_pos h2, if_pos h2]
    exact energyBins_of_rates hI fun E => by
      change (x.dRdE S' d E p).valueOr0 = k * (x.dRdE S d E p).valueOr0
      rw [dRdE_of_rates hS, Outcome.scale_valueOr0]
  rw [if_neg h2, if_neg h2]
  by_cases h3 : x.usingElectronBins = true
  · rw [if_pos h3, if_pos h3]
    unfold signalsElectronBins
    rw [if_neg (by simp [h3]), if_neg (by simp [h3])]
    refine collect_scale k fun bin _ => ?_
    rw [rNe_of_rates hS]
    cases x.rNe U S d ((x.neThreshold + bin) % 2 ^ 32) p <;> simp [Outcome.scale]
    cases vecGet d.binEfficiencies bin <;> simp
    ring
  rw [if_neg h3, if_neg h3]
  by_cases h4 : x.usingS2Bins = true
  · rw [if_pos h4, if_pos h4]
    unfold signalsPEBins
    rw [if_neg (by simp [h4]), if_neg (by simp [h4]), spectrum_of_rates hS]
    generalize collect (fun ne => x.rNe U S d ne p) _ = o
    cases o <;> try rfl
    rename_i sp
    simp only [Outcome.bind_ok]
    refine collect_scale k fun bin _ => ?_
    cases vecGet x.s2Bins bin <;> simp [Outcome.scale]
    cases vecGet x.s2Bins (bin + 1) <;> simp
    rw [rS2Bin_of_rates hS]
    rename_i lo hi
    cases x.rS2Bin U S d lo (usub32 hi 1) p sp <;> simp [Outcome.scale]
    cases vecGet d.binEfficiencies bin <;> simp
    ring
  · rw [if_neg h4, if_neg h4]; rfl

theorem signalsTotal_of_rates {h' : Distribution} (hI : T.integrate.Homogeneous) (hS : ∀ E n e, S' d E p n e = (S d E p n e).scale k) :
    x.signalsTotal U S' T d p h' = x.signalsTotal U S T d p h >>= fun s => .ok (k * s) := by
  unfold signalsTotal
  by_cases h1 : d.analysis = .binnedPoisson
  · rw [if_pos h1, if_pos h1, signalsBinned_of_rates (h := h) hI hS]
    cases x.signalsBinned U S T d p h <;> simp [foldl_add_eq_sum, sum_map_mul]
  rw [if_neg h1, if_neg h1]
  by_cases h2 : x.usingElectronThreshold = true
  · rw [if_pos h2, if_pos h2]
    refine sumOver_scale k fun ne _ => ?_
    rw [rNe_of_rates hS]
    cases x.rNe U S d ne p <;> simp [Outcome.scale]
    ring
  rw [if_neg h2, if_neg h2]
  by_cases h3 : d.usingEnergyThreshold = true
  · rw [if_pos h3, if_pos h3]
    refine sumOver_scale k fun i _ => ?_
    cases vecGet x.atoms i <;> simp [Outcome.scale]
    rename_i b
    refine sumOver_scale k fun e he => ?_
    cases vecGet x.fractions i <;> simp [Outcome.scale]
    unfold thresholdSignal
    dsimp only
    split_ifs
    · have : (fun E => d.exposure * (S' d E p b.nucleus e).valueOr0) = fun E => k * (d.exposure * (S d E p b.nucleus e).valueOr0) := by
        funext E
        rw [hS, Outcome.scale_valueOr0]; ring
      rw [this, hI]; ring
    · simp
  rw [if_neg h3, if_neg h3]
  by_cases h4 : x.usingS2Threshold = true
  · rw [if_pos h4, if_pos h4]
    have := rS2Bin_of_rates (U := U) (x := x) hS x.peThreshold x.peMax []
    rw [List.map_nil] at this
    rw [this]
    cases x.rS2Bin U S d x.peThreshold x.peMax p [] <;> simp [Outcome.scale]
    ring
  · rw [if_neg h4, if_neg h4]; simp

end IonizationDetector

/-! ## Rates in a denser halo -/

theorem denser_flux (v m : ℝ) : (denser k h).differentialFlux v m = k * h.differentialFlux v m := by
  simp only [Distribution.differentialFlux, denser]
  ring

theorem denser_nuclear {nd : NuclearDetector} (hI : I.Homogeneous) (E : ℝ) :
    nd.dRdE U I d E p (denser k h) = (nd.dRdE U I d E p h).scale k := by
  have hiso : ∀ ER iso, dRdERIsotope U I ER p (denser k h) iso = (dRdERIsotope U I ER p h iso).scale k := by
    intro ER iso
    unfold dRdERIsotope
    have e1 : (denser k h).vMax = h.vMax := rfl
    have e2 : (denser k h).useEta = h.useEta := rfl
    have e3 : (denser k h).eta = h.eta := rfl
    have e4 : (denser k h).density = k * h.density := rfl
    simp only [e1, e2, e3, e4, denser_flux]
    split_ifs
    · simp [Outcome.scale]
    · cases h.eta _ <;> simp [Outcome.scale]
      ring
    · simp only [Outcome.scale, Outcome.bind_ok, Outcome.ok.injEq]
      rw [mul_left_comm k, ← hI k]
      congr 2
      funext v
      ring
  have ht : ∀ ER, nd.theoryRate U I d E ER p (denser k h) = (nd.theoryRate U I d E ER p h).scale k := by
    intro ER
    refine sumOver_scale k fun i _ => ?_
    cases vecGet nd.nuclei i <;> simp [Outcome.scale]
    rename_i n
    cases nd.efficiency i E <;> simp
    cases vecGet nd.fractions i <;> simp
    have : dRdERNucleus U I ER p (denser k h) n = (dRdERNucleus U I ER p h n).scale k := by
      refine sumOver_scale k fun iso _ => ?_
      rw [hiso]
      cases dRdERIsotope U I ER p h iso <;> simp [Outcome.scale]
      ring
    rw [this]
    cases dRdERNucleus U I ER p h n <;> simp [Outcome.scale]
    ring
  unfold NuclearDetector.dRdE
  split_ifs
  · exact ht E
  · simp only [Outcome.scale, Outcome.bind_ok, Outcome.ok.injEq]
    rw [← hI]
    congr 1
    funext ER
    rw [ht, Outcome.scale_valueOr0]; ring

theorem denser_electrons (hI : I.Homogeneous) (E : ℝ) (n : Nucleus) (e : AtomicElectron) :
    shellRateER U I (denser k h) d E p n e = (shellRateER U I h d E p n e).scale k := by
  have e1 : (denser k h).vMax = h.vMax := rfl
  have e2 : (denser k h).useEta = h.useEta := rfl
  have e3 : (denser k h).eta = h.eta := rfl
  have e4 : (denser k h).density = k * h.density := rfl
  have ht : ∀ dl q, dRdEeERTerm U I E dl p (denser k h) e q = (dRdEeERTerm U I E dl p h e q).scale k := fun dl q => by
    unfold dRdEeERTerm
    simp only [e1, e2, e3, e4, denser_flux]
    split_ifs
    · cases h.eta _ <;> simp [Outcome.scale]
      ring
    · simp only [Outcome.scale, Outcome.bind_ok, Outcome.ok.injEq]
      rw [mul_left_comm k, ← hI k]
      congr 2
      funext v
      ring
    · simp [Outcome.scale]
  have hr : dRdEeER U I E p (denser k h) n.averageMass e = (dRdEeER U I E p h n.averageMass e).scale k := by
    unfold dRdEeER
    rw [e1]
    dsimp only
    by_cases h1 : energeticallyClosed p.mass h.vMax e.binding
    · simp [h1, Outcome.scale]
    simp only [if_neg h1]
    by_cases h2 : e.qMax < qMinER p.mass h.vMax e.binding
    · simp [h2, Outcome.scale]
    simp only [if_neg h2]
    generalize (if e.qMax < qMaxER p.mass h.vMax e.binding then _ else _ : ℝ) = top
    by_cases h3 : qMinER p.mass h.vMax e.binding ≤ 0
    · simp only [if_pos h3]; rfl
    simp only [if_neg h3]
    cases vecGet (logSpace (qMinER p.mass h.vMax e.binding) top 100) 1 <;> try rfl
    cases vecGet (logSpace (qMinER p.mass h.vMax e.binding) top 100) 0 <;> try rfl
    simp only [Outcome.bind_ok]
    rw [sumOver_scale k fun q _ => ht _ q]
    generalize sumOver _ _ = o
    cases o <;> simp [Outcome.scale]
    ring
  unfold shellRateER
  rw [hr]
  cases dRdEeER U I E p h n.averageMass e <;> simp [Outcome.scale]
  ring

theorem denser_migdal (hI : I.Homogeneous) (E : ℝ) (n : Nucleus) (e : AtomicElectron) :
    shellRateMigdal U I (denser k h) d E p n e = (shellRateMigdal U I h d E p n e).scale k := by
  have e1 : (denser k h).vMax = h.vMax := rfl
  have e2 : (denser k h).useEta = h.useEta := rfl
  have e3 : (denser k h).eta = h.eta := rfl
  have e4 : (denser k h).density = k * h.density := rfl
  have hi : ∀ iso, migdalIntegrand U I E p (denser k h) iso e = fun ER => k * migdalIntegrand U I E p h iso e ER := fun iso => by
    funext ER
    unfold migdalIntegrand
    simp only [e1, e2, e3, e4, denser_flux]
    generalize (if 0 < ER then _ else _ : ℝ) = vMin
    split_ifs
    · simp
    · ring
    · rw [← hI k]
      congr 1
      funext v
      ring
  have hiso : ∀ iso, dRdEeMigdalIsotope U I E p (denser k h) iso e = k * dRdEeMigdalIsotope U I E p h iso e := fun iso => by
    unfold dRdEeMigdalIsotope
    rw [hi, hI, e1]
    ring
  have hfold : ∀ (l : List Isotope) (s : ℝ), l.foldl (fun (s : ℝ) iso => s + iso.abundance * dRdEeMigdalIsotope U I E p (denser k h) iso e) (k * s) =
      k * l.foldl (fun (s : ℝ) iso => s + iso.abundance * dRdEeMigdalIsotope U I E p h iso e) s := by
    intro l
    induction l with
    | nil => intro s; rfl
    | cons iso l ih =>
      intro s
      rw [List.foldl_cons, List.foldl_cons, ← ih, hiso]
      congr 1
      ring
  have := hfold n.isotopes 0
  rw [mul_zero] at this
  simp only [shellRateMigdal, dRdEeMigdal, Outcome.scale, Outcome.bind_ok, Outcome.ok.injEq]
  rw [this]
  ring

theorem denser_crystal (hI : I.Homogeneous) {c : Crystal} (E : ℝ) : dRdEeCrystal U I E p (denser k h) c = (dRdEeCrystal U I E p h c).scale k := by
  have e1 : (denser k h).vMax = h.vMax := rfl
  have e2 : (denser k h).useEta = h.useEta := rfl
  have e3 : (denser k h).eta = h.eta := rfl
  have e4 : (denser k h).density = k * h.density := rfl
  have ht : ∀ qi, dRdEeCrystalTerm U I E p (denser k h) c qi = (dRdEeCrystalTerm U I E p h c qi).scale k := fun qi => by
    unfold dRdEeCrystalTerm
    simp only [e1, e2, e3, e4, denser_flux]
    split_ifs
    · simp [Outcome.scale]
    · cases h.eta _ <;> simp [Outcome.scale]
      ring
    · simp only [Outcome.scale, Outcome.bind_ok, Outcome.ok.injEq]
      rw [mul_left_comm k, ← hI k]
      congr 2
      funext v
      ring
  unfold dRdEeCrystal
  split_ifs
  · simp [Outcome.scale]
  · rw [sumOver_scale k fun q _ => ht q]
    cases sumOver (dRdEeCrystalTerm U I E p h c) (List.range c.nq) <;> simp [Outcome.scale]
    ring

theorem denser_crystal_binned {x : CrystalDetector} (hI : T.integrate.Homogeneous) :
    x.signalsBinned U T d p (denser k h) = x.signalsBinned U T d p h >>= fun ss => .ok (ss.map fun s => k * s) := by
  unfold CrystalDetector.signalsBinned
  split_ifs with h1 h2
  · rfl
  · exact energyBins_of_rates hI fun E => by
      change (x.dRdE U T.integrate d E p (denser k h)).valueOr0 = k * (x.dRdE U T.integrate d E p h).valueOr0
      unfold CrystalDetector.dRdE
      rw [denser_crystal hI]
      cases dRdEeCrystal U T.integrate E p h x.crystal <;> simp [Outcome.scale, Outcome.valueOr0]
      ring
  · cases readMember x.usingQBins <;> try rfl
    rw [Outcome.bind_ok, Outcome.bind_ok]
    split_ifs
    · unfold CrystalDetector.signalsQBins
      cases readMember x.usingQBins <;> try rfl
      rw [Outcome.bind_ok, Outcome.bind_ok]
      split_ifs
      · rfl
      · cases readMember x.qThreshold <;> try rfl
        rw [Outcome.bind_ok, Outcome.bind_ok]
        refine collect_scale k fun Q _ => ?_
        cases vecGet d.binEfficiencies (usub32 Q 1) <;> simp [Outcome.scale]
        have : rQCrystal U T.integrate (toInt32 Q) p (denser k h) x.crystal = (rQCrystal U T.integrate (toInt32 Q) p h x.crystal).scale k := by
          unfold rQCrystal
          dsimp only
          generalize toIntConv _ = o
          cases o <;> try rfl
          simp only [Outcome.bind_ok]
          refine sumOver_scale k fun i _ => ?_
          rw [denser_crystal hI]
          cases dRdEeCrystal U T.integrate _ p h x.crystal <;> simp [Outcome.scale]
          ring
        rw [this]
        cases rQCrystal U T.integrate (toInt32 Q) p h x.crystal <;> simp [Outcome.scale]
        ring
    · rfl

theorem denser_crystal_total {x : CrystalDetector} (hI : T.integrate.Homogeneous) :
    x.signalsTotal U T d p (denser k h) = x.signalsTotal U T d p h >>= fun s => .ok (k * s) := by
  unfold CrystalDetector.signalsTotal
  split_ifs with h1 h2
  · rw [denser_crystal_binned hI]
    cases x.signalsBinned U T d p h <;> simp [foldl_add_eq_sum, sum_map_mul]
  · rw [Outcome.bind_ok, Outcome.ok.injEq]
    have : (fun E => (x.dRdE U T.integrate d E p (denser k h)).valueOr0) = fun E => k * (x.dRdE U T.integrate d E p h).valueOr0 :=
      funext fun E => by
        unfold CrystalDetector.dRdE
        rw [denser_crystal hI]
        cases dRdEeCrystal U T.integrate E p h x.crystal <;> simp [Outcome.scale, Outcome.valueOr0]
        ring
    rw [this, hI]
    ring
  · cases readMember x.usingQThreshold <;> try rfl
    rw [Outcome.bind_ok, Outcome.bind_ok]
    split_ifs
    · cases readMember x.qThreshold <;> try rfl
      rw [Outcome.bind_ok, Outcome.bind_ok]
      rename_i Q
      have : rTotalCrystal U T.integrate (toInt32 Q) p (denser k h) x.crystal = (rTotalCrystal U T.integrate (toInt32 Q) p h x.crystal).scale k := by
        unfold rTotalCrystal
        dsimp only
        generalize toIntConv _ = o
        cases o <;> try rfl
        simp only [Outcome.bind_ok]
        refine sumOver_scale k fun i _ => ?_
        rw [denser_crystal hI]
        cases dRdEeCrystal U T.integrate _ p h x.crystal <;> simp [Outcome.scale]
        ring
      rw [this]
      cases rTotalCrystal U T.integrate _ p h x.crystal <;> simp [Outcome.scale]
      ring
    · simp

end Obscura
