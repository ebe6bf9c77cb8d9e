import Verif.Lemmas.Dimension
import Mathlib.Data.List.Sort

/-!
# Rates of nuclear recoils and the base class of detectors in another unit of energy
-/

namespace Obscura

open Spec

variable {U : Units} {T : Tools} {k : ℝ} {h : Distribution}

theorem Outcome.inUnit_id {α : Type} (o : Outcome α) : o.inUnit id = o := by cases o <;> rfl

theorem Outcome.inUnit_bind' {α γ δ : Type} {o : Outcome α} {g : α → Outcome γ} {g' : α → Outcome δ} {F : γ → δ}
    (h : ∀ x, g' x = (g x).inUnit F) : (o >>= g') = (o >>= g).inUnit F := by
  cases o <;> simp [h]

theorem Outcome.inUnit_congr {α β : Type} {f g : α → β} (o : Outcome α) (h : ∀ x, f x = g x) : o.inUnit f = o.inUnit g := by
  rw [funext h]

theorem Outcome.inUnit_inUnit {α β γ : Type} (o : Outcome α) (f : α → β) (g : β → γ) : (o.inUnit f).inUnit g = o.inUnit (g ∘ f) := by
  cases o <;> rfl

theorem Outcome.valueOr0_unit (o : Outcome ℝ) (i : ℝ) : (o.inUnit (i * ·)).valueOr0 = i * o.valueOr0 := by
  cases o <;> simp [Outcome.valueOr0]

theorem collect_unit {α β γ δ : Type} {F : α → γ} {G : β → δ} {g : α → Outcome β} {g' : γ → Outcome δ} (l : List α)
    (h : ∀ x, g' (F x) = (g x).inUnit G) : collect g' (l.map F) = (collect g l).inUnit (List.map G) := by
  induction l with
  | nil => rfl
  | cons a l ih =>
    simp only [List.map_cons, collect, h, ih]
    cases g a <;> cases collect g l <;> rfl

theorem collect_same {α β : Type} {g g' : α → Outcome β} (l : List α) (h : ∀ x, g' x = g x) : collect g' l = collect g l := by
  rw [funext h]

theorem foldl_add_unit (i : ℝ) (l : List ℝ) (s : ℝ) : (l.map (i * ·)).foldl (· + ·) (i * s) = i * l.foldl (· + ·) s := by
  induction l generalizing s with
  | nil => rfl
  | cons a l ih => simp only [List.map_cons, List.foldl_cons, ← mul_add, ih]

theorem sumOver_unit {α γ : Type} {F : α → γ} {i : ℝ} {g : α → Outcome ℝ} {g' : γ → Outcome ℝ} (l : List α)
    (h : ∀ x, g' (F x) = (g x).inUnit (i * ·)) : sumOver g' (l.map F) = (sumOver g l).inUnit (i * ·) := by
  unfold sumOver
  rw [collect_unit l h]
  refine Outcome.inUnit_bind fun xs => ?_
  have := foldl_add_unit i xs 0
  rw [mul_zero] at this
  simp only [this, Outcome.inUnit_ok]

theorem sumOver_unit' {α : Type} {i : ℝ} {g g' : α → Outcome ℝ} (l : List α)
    (h : ∀ x, g' x = (g x).inUnit (i * ·)) : sumOver g' l = (sumOver g l).inUnit (i * ·) := by
  have := sumOver_unit (F := id) (g := g) (g' := g') l h
  rwa [List.map_id] at this

theorem vecGet_unit {α β : Type} (F : α → β) (l : List α) (i : ℕ) : vecGet (l.map F) i = (vecGet l i).inUnit F := by
  unfold vecGet
  rw [List.getElem?_map]
  cases l[i]? <;> rfl

theorem minElement_unit (hk : 0 < k) (l : List ℝ) : minElement (l.map (k * ·)) = (minElement l).inUnit (k * ·) := by
  cases l with
  | nil => rfl
  | cons a l =>
    simp only [List.map_cons, minElement, Outcome.inUnit_ok, Outcome.ok.injEq]
    induction l generalizing a with
    | nil => rfl
    | cons b l ih => simp only [List.map_cons, List.foldl_cons, ← mul_min_of_nonneg _ _ hk.le, ih]

theorem linearSpace_unit (a b : ℝ) (n : ℕ) : linearSpace (k * a) (k * b) n = (linearSpace a b n).map (k * ·) := by
  unfold linearSpace
  rw [List.map_map]
  refine List.map_congr_left fun i _ => ?_
  simp only [Function.comp]
  ring

theorem logSpace_unit (hk : 0 < k) (a b : ℝ) (n : ℕ) : logSpace (k * a) (k * b) n = (logSpace a b n).map (k * ·) := by
  unfold logSpace
  rw [List.map_map]
  refine List.map_congr_left fun i _ => ?_
  simp only [Function.comp, mul_div_mul_left _ _ hk.ne', mul_assoc]

theorem pdfGauss_unit (hk : 0 < k) (x m s : ℝ) : pdfGauss (k * x) (k * m) (k * s) = 1 / k * pdfGauss x m s := by
  unfold pdfGauss
  rw [← mul_sub, mul_div_mul_left _ _ hk.ne', mul_left_comm, ← div_div, ← mul_assoc]
  congr 1
  rw [div_mul_div_comm, one_mul, div_div]

/-! ## Nuclei -/

theorem Isotope.make_unit (hk : 0 < k) (z a : ℕ) (ab s sp sn : ℝ) :
    Isotope.make (U.inUnit k hk) z a ab s sp sn = (Isotope.make U z a ab s sp sn).inUnit (Isotope.inUnit k) := by
  unfold Isotope.make
  split_ifs with h1 h2
  · rfl
  · simp only [Outcome.inUnit_ok, Isotope.inUnit, Units.inUnit, Outcome.ok.injEq, Isotope.mk.injEq, true_and]
    ring
  · rfl

theorem averageMass_unit (n : Nucleus) : (n.inUnit k).averageMass = k * n.averageMass := by
  have : ∀ (l : List Isotope) (s : ℝ), (l.map (Isotope.inUnit k)).foldl (fun (s : ℝ) iso => s + iso.mass * iso.abundance) (k * s) =
      k * l.foldl (fun (s : ℝ) iso => s + iso.mass * iso.abundance) s := by
    intro l
    induction l with
    | nil => intro s; rfl
    | cons a l ih =>
      intro s
      simp only [List.map_cons, List.foldl_cons, ← ih, Isotope.inUnit]
      congr 1
      ring
  have h := this n.isotopes 0
  rw [mul_zero] at h
  exact h

/-! ## Rates of nuclear recoils -/

theorem dRdERIsotope_unit (hk : 0 < k) (E : ℝ) (p : DMParticle) (iso : Isotope) :
    dRdERIsotope (U.inUnit k hk) T.integrate (k * E) (p.inUnit k) (h.inUnit k) (iso.inUnit k) =
      (dRdERIsotope U T.integrate E p h iso).inUnit (1 / k * ·) := by
  have h0 := hk.ne'
  unfold dRdERIsotope
  have e1 : (p.inUnit k).mass = k * p.mass := rfl
  have e2 : (iso.inUnit k).mass = k * iso.mass := rfl
  have e3 : (h.inUnit k).vMax = h.vMax := rfl
  have e4 : (p.inUnit k).useEtaFunction = p.useEtaFunction := rfl
  have e5 : (h.inUnit k).useEta = h.useEta := rfl
  have e6 : (h.inUnit k).eta = h.eta := rfl
  have e7 : (p.inUnit k).fractionalDensity = p.fractionalDensity := rfl
  have e8 : (h.inUnit k).density = k ^ 4 * h.density := rfl
  have e9 : ∀ v, (h.inUnit k).differentialFlux v (k * p.mass) * (p.dSigmadERNucleus U E iso v / k ^ 3) =
      1 * (h.differentialFlux v p.mass * p.dSigmadERNucleus U E iso v) := by
    intro v
    simp only [Distribution.differentialFlux, e8, show (h.inUnit k).pdfSpeed = h.pdfSpeed from rfl]
    rw [show k ^ 4 * h.density / (k * p.mass) = k ^ 3 * (h.density / p.mass) by
      rw [show k ^ 4 * h.density = k * (k ^ 3 * h.density) by ring, mul_div_mul_left _ _ h0, mul_div_assoc]]
    field_simp
  simp only [e1, e2, e3, e4, e5, e6, e7, e8, vMinimalNucleus_unit hk, DMParticle.dSigmadERNucleus_unit, e9, one_mul]
  split_ifs
  · simp
  · refine Outcome.inUnit_bind' fun x => ?_
    simp only [Outcome.inUnit_ok, Outcome.ok.injEq]
    rw [show 1 / (k * iso.mass) * (k ^ 4 * h.density * p.fractionalDensity) / (k * p.mass) =
      k ^ 4 * (h.density * p.fractionalDensity) * (k⁻¹) ^ 2 * (1 / iso.mass / p.mass) by
        simp only [mul_inv, div_eq_mul_inv]; ring]
    field_simp
  · simp only [Outcome.inUnit_ok, Outcome.ok.injEq]
    rw [← div_div]
    ring

theorem dRdERNucleus_unit (hk : 0 < k) (E : ℝ) (p : DMParticle) (n : Nucleus) :
    dRdERNucleus (U.inUnit k hk) T.integrate (k * E) (p.inUnit k) (h.inUnit k) (n.inUnit k) =
      (dRdERNucleus U T.integrate E p h n).inUnit (1 / k * ·) := by
  unfold dRdERNucleus
  refine sumOver_unit n.isotopes fun iso => ?_
  rw [dRdERIsotope_unit hk]
  refine Outcome.inUnit_bind fun r => ?_
  simp only [Outcome.inUnit_ok, Outcome.ok.injEq, Isotope.inUnit]
  ring

namespace NuclearDetector

variable (x : NuclearDetector) (d : Detector) (p : DMParticle)

theorem efficiency_unit (hk : 0 < k) (i : ℕ) (E : ℝ) : (x.inUnit k).efficiency i (k * E) = x.efficiency i E := by
  unfold efficiency
  have e1 : (x.inUnit k).usingTables = x.usingTables := rfl
  have e2 : (x.inUnit k).efficiencies = x.efficiencies.map fun f E => f (E / k) := rfl
  have e3 : (x.inUnit k).nuclei.length = x.nuclei.length := by simp [inUnit]
  rw [e1, e2, e3, List.length_map, vecGet_unit, vecGet_unit]
  have : ∀ j, ((vecGet x.efficiencies j).inUnit (fun (f : ℝ → ℝ) E => f (E / k)) >>= fun f => Outcome.ok (f (k * E))) =
      (vecGet x.efficiencies j >>= fun f => .ok (f E)) := by
    intro j
    cases vecGet x.efficiencies j <;> simp
    rw [mul_div_cancel_left₀ _ hk.ne']
  rw [this, this]

theorem theoryRate_unit (hk : 0 < k) (E ER : ℝ) :
    (x.inUnit k).theoryRate (U.inUnit k hk) T.integrate (d.inUnit k) (k * E) (k * ER) (p.inUnit k) (h.inUnit k) =
      (x.theoryRate U T.integrate d E ER p h).inUnit (1 / k * ·) := by
  unfold theoryRate
  have e1 : (x.inUnit k).nuclei = x.nuclei.map (Nucleus.inUnit k) := rfl
  have e2 : (x.inUnit k).fractions = x.fractions := rfl
  have e3 : (d.inUnit k).flatEfficiency = d.flatEfficiency := rfl
  rw [e1, e2, e3, List.length_map]
  refine sumOver_unit' _ fun i => ?_
  rw [vecGet_unit, efficiency_unit x hk]
  refine Outcome.inUnit_bind fun n => ?_
  refine Outcome.inUnit_bind' fun eff => ?_
  refine Outcome.inUnit_bind' fun fr => ?_
  rw [dRdERNucleus_unit hk]
  refine Outcome.inUnit_bind fun r => ?_
  simp only [Outcome.inUnit_ok, Outcome.ok.injEq]
  ring

theorem dRdE_unit (hk : 0 < k) (hI : UnitFree T.integrate) (E : ℝ) :
    (x.inUnit k).dRdE (U.inUnit k hk) T.integrate (d.inUnit k) (k * E) (p.inUnit k) (h.inUnit k) =
      (x.dRdE U T.integrate d E p h).inUnit (1 / k * ·) := by
  have h0 := hk.ne'
  unfold dRdE
  have e1 : (x.inUnit k).resolution = k * x.resolution := rfl
  have e2 : (d.inUnit k).energyThreshold = k * d.energyThreshold := rfl
  have e3 : 1 / 10 ^ 6 * (U.inUnit k hk).eV = k * (1 / 10 ^ 6 * U.eV) := by simp [Units.inUnit]; ring
  rw [e1, e2, e3, theoryRate_unit x d p hk]
  simp only [mul_lt_mul_iff_right₀ hk]
  split_ifs
  · rfl
  · simp only [Outcome.inUnit_ok, Outcome.ok.injEq]
    have a1 : max (max (k * E - 6 * (k * x.resolution)) (k * d.energyThreshold - 3 * (k * x.resolution))) (2 * (k * x.resolution)) =
        k * max (max (E - 6 * x.resolution) (d.energyThreshold - 3 * x.resolution)) (2 * x.resolution) := by
      rw [mul_max_of_nonneg _ _ hk.le, mul_max_of_nonneg _ _ hk.le]
      congr 1
      · congr 1 <;> ring
      · ring
    have a2 : k * E + 6 * (k * x.resolution) = k * (E + 6 * x.resolution) := by ring
    rw [a1, a2, DMParticle.integral_unit hk hI (i := 1 / k * (1 / k)) hk
      (fun ER => pdfGauss E ER x.resolution * (x.theoryRate U T.integrate d E ER p h).valueOr0)]
    · field_simp
    · intro ER
      rw [pdfGauss_unit hk, theoryRate_unit x d p hk, Outcome.valueOr0_unit]
      ring

theorem isotopes_unit : (x.inUnit k).isotopes = x.isotopes.map (Isotope.inUnit k) := by
  simp only [isotopes, inUnit, List.flatMap_map, List.map_flatMap]
  rfl

theorem positive_unit (hk : 0 < k) (s : ℝ) : 0 < s / k ^ 2 ↔ 0 < s := by
  have : 0 < k ^ 2 := by positivity
  exact div_pos_iff_of_pos_right this

theorem depositLoop_unit (hk : 0 < k) (hI : UnitFree T.integrate) (v : ℝ) (l : List Isotope) (E : ℝ) :
    depositLoop (U.inUnit k hk) T.integrate (p.inUnit k) v (l.map (Isotope.inUnit k)) (k * E) =
      (depositLoop U T.integrate p v l E).inUnit (k * ·) := by
  induction l generalizing E with
  | nil => rfl
  | cons iso l ih =>
    have e1 : (p.inUnit k).mass = k * p.mass := rfl
    have e2 : (iso.inUnit k).mass = k * iso.mass := rfl
    simp only [List.map_cons, depositLoop, e1, e2, maximumNuclearRecoilEnergy_unit hk, mul_lt_mul_iff_right₀ hk,
      DMParticle.sigmaTotalNucleus_unit hk p hI]
    split_ifs
    · refine Outcome.inUnit_bind fun s => ?_
      simp only [positive_unit hk]
      split_ifs
      · exact ih _
      · exact ih _
    · exact ih _

theorem maximumEnergyDeposit_unit (hk : 0 < k) (hI : UnitFree T.integrate) :
    (x.inUnit k).maximumEnergyDeposit (U.inUnit k hk) T.integrate (p.inUnit k) (h.inUnit k) =
      (x.maximumEnergyDeposit U T.integrate p h).inUnit (k * ·) := by
  unfold maximumEnergyDeposit
  have := depositLoop_unit (U := U) p hk hI h.vMax x.isotopes 0
  rw [mul_zero] at this
  rw [isotopes_unit, show (h.inUnit k).vMax = h.vMax from rfl, this]
  refine Outcome.inUnit_bind fun E => ?_
  simp only [Outcome.inUnit_ok, Outcome.ok.injEq, inUnit]
  ring

theorem minimumMassIsotope_unit (hk : 0 < k) (E v : ℝ) (iso : Isotope) :
    minimumMassIsotope (k * E) v (iso.inUnit k) = (minimumMassIsotope E v iso).inUnit (k * ·) := by
  have h0 := hk.ne'
  unfold minimumMassIsotope
  have e2 : (iso.inUnit k).mass = k * iso.mass := rfl
  have e3 : k * E = 0 ↔ E = 0 := by simp [h0]
  have e4 : fdiv (2 * (k * iso.mass)) (k * E) = fdiv (2 * iso.mass) E := by
    rw [mul_left_comm, fdiv_unit hk _ _ _ _ h0 h0, div_self h0]
    cases fdiv (2 * iso.mass) E <;> simp
  rw [e2, e4]
  simp only [e3, mul_pos_iff_of_pos_left hk]
  split_ifs
  · simp
  · refine Outcome.inUnit_bind' fun y => ?_
    refine Outcome.inUnit_bind' fun r => ?_
    have := fdiv_unit hk iso.mass (r * v - 1) k 1 h0 one_ne_zero
    simpa using this

theorem massLoop_unit (hk : 0 < k) (hI : UnitFree T.integrate) (E v : ℝ) (l : List Isotope) :
    massLoop (U.inUnit k hk) T.integrate (p.inUnit k) (k * E) v (l.map (Isotope.inUnit k)) =
      (massLoop U T.integrate p E v l).inUnit (List.map (k * ·)) := by
  induction l with
  | nil => rfl
  | cons iso l ih =>
    simp only [List.map_cons, massLoop, DMParticle.sigmaTotalNucleus_unit hk p hI]
    refine Outcome.inUnit_bind fun s => ?_
    simp only [positive_unit hk]
    split_ifs
    · rw [minimumMassIsotope_unit hk]
      refine Outcome.inUnit_bind fun m => ?_
      rw [ih]
      exact Outcome.inUnit_bind fun ms => rfl
    · exact ih

theorem minimumDMMass_unit (hk : 0 < k) (hI : UnitFree T.integrate) :
    (x.inUnit k).minimumDMMass (U.inUnit k hk) T.integrate (d.inUnit k) (p.inUnit k) (h.inUnit k) =
      (x.minimumDMMass U T.integrate d p h).inUnit (k * ·) := by
  unfold minimumDMMass
  have e : (d.inUnit k).energyThreshold - 2 * (x.inUnit k).resolution = k * (d.energyThreshold - 2 * x.resolution) := by
    simp only [Detector.inUnit, inUnit]; ring
  rw [e, isotopes_unit, show (h.inUnit k).vMax = h.vMax from rfl, massLoop_unit p hk hI]
  exact Outcome.inUnit_bind fun l => minElement_unit hk l

theorem speedLoop_unit (hk : 0 < k) (hI : UnitFree T.integrate) (E : ℝ) (l : List Isotope) (v : ℝ) :
    speedLoop (U.inUnit k hk) T.integrate (p.inUnit k) (k * E) (l.map (Isotope.inUnit k)) v = speedLoop U T.integrate p E l v := by
  induction l generalizing v with
  | nil => rfl
  | cons iso l ih =>
    have e1 : (p.inUnit k).mass = k * p.mass := rfl
    have e2 : (iso.inUnit k).mass = k * iso.mass := rfl
    simp only [List.map_cons, speedLoop, e1, e2, vMinimalNucleus_unit hk, DMParticle.sigmaTotalNucleus_unit hk p hI]
    split_ifs
    · cases p.sigmaTotalNucleus U T.integrate iso (1 / 1000) with
      | ok s =>
        simp only [Outcome.inUnit_ok, Outcome.bind_ok, positive_unit hk]
        split_ifs
        · exact ih _
        · exact ih _
      | _ => rfl
    · exact ih _

theorem minimumDMSpeed_unit (hk : 0 < k) (hI : UnitFree T.integrate) :
    (x.inUnit k).minimumDMSpeed (U.inUnit k hk) T.integrate (d.inUnit k) (p.inUnit k) = x.minimumDMSpeed U T.integrate d p := by
  unfold minimumDMSpeed
  have e : (d.inUnit k).energyThreshold - 2 * (x.inUnit k).resolution = k * (d.energyThreshold - 2 * x.resolution) := by
    simp only [Detector.inUnit, inUnit]; ring
  rw [e, isotopes_unit, speedLoop_unit p hk hI]

theorem massFractions_unit (hk : 0 < k) (nuclei : List Nucleus) (ab : List ℝ) :
    massFractions (nuclei.map (Nucleus.inUnit k)) ab = massFractions nuclei ab := by
  have h0 := hk.ne'
  unfold massFractions
  have finish : ∀ (g g' : ℕ → Outcome ℝ) (R : List ℕ), (∀ i, g' i = (g i).inUnit (k * ·)) →
      (collect g' R >>= fun ms => collect (fun m => fdiv m (ms.foldl (· + ·) 0)) ms) =
        (collect g R >>= fun ms => collect (fun m => fdiv m (ms.foldl (· + ·) 0)) ms) := by
    intro g g' R hg
    have e := collect_unit (F := id) (G := (k * ·)) (g := g) (g' := g') R hg
    rw [List.map_id] at e
    rw [e]
    cases collect g R with
    | ok ms =>
      simp only [Outcome.inUnit_ok, Outcome.bind_ok]
      have hs := foldl_add_unit k ms 0
      rw [mul_zero] at hs
      rw [hs]
      have := collect_unit (F := (k * ·)) (G := id) (g := fun m => fdiv m (ms.foldl (· + ·) 0))
        (g' := fun m => fdiv m (k * ms.foldl (· + ·) 0)) ms fun m => by
          simp only [fdiv_unit hk _ _ _ _ h0 h0, div_self h0, one_mul]
          rfl
      rw [this]
      cases collect (fun m => fdiv m (ms.foldl (· + ·) 0)) ms <;> simp
    | _ => rfl
  rw [List.length_map]
  split_ifs
  · refine finish _ _ _ fun i => ?_
    rw [vecGet_unit]
    refine Outcome.inUnit_bind fun n => ?_
    simp [averageMass_unit]
  · refine finish _ _ _ fun i => ?_
    rw [vecGet_unit]
    refine Outcome.inUnit_bind fun n => ?_
    refine Outcome.inUnit_bind' fun a => ?_
    simp only [averageMass_unit, Outcome.inUnit_ok, Outcome.ok.injEq]
    ring
  · rfl

end NuclearDetector

theorem Detector.make_unit (label : String) (expo : ℝ) (t : String) : (Detector.make label expo t).inUnit k = Detector.make label expo t := by
  simp [Detector.make, Detector.inUnit]

theorem NuclearDetector.make_unit (hk : 0 < k) (label : String) (expo : ℝ) (nuclei : List Nucleus) (ab : List ℝ) :
    NuclearDetector.make label expo (nuclei.map (Nucleus.inUnit k)) ab =
      (NuclearDetector.make label expo nuclei ab).inUnit fun r => (r.1.inUnit k, r.2.inUnit k) := by
  unfold NuclearDetector.make
  rw [massFractions_unit hk]
  refine Outcome.inUnit_bind' fun fr => ?_
  simp [Detector.make_unit, NuclearDetector.inUnit]

end Obscura
