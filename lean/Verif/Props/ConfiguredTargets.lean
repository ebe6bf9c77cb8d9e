import Verif.Props.Configured
import Verif.Props.SingleIsotope

/-!
# C70, C83 — lists of targets that are not lists, and the number of isotopes
-/

namespace Obscura

open Spec

variable {S : Setup} {cache : List Nucleus}

/-- C70 is false for the list of targets: if `DD_targets_nuclear` is an empty list, or not a list at all (a single number, say), the program
goes on with a detector that contains nothing. No particle gives a signal in it, and asking for the lightest detectable particle (as
every exclusion limit does) is undefined behaviour. -/
theorem C70_fails_no_targets {c : Config} {s : DetectorSettings} {t : Setting} {threshold highest resolution : ℝ}
    (hk : c "DD_experiment" = some (.string "Nuclear recoil")) (hs : DescribesDetector c s) (ht : c "DD_targets_nuclear" = some t)
    (hno : ∀ x l, t ≠ .list (x :: l)) (h1 : c "DD_threshold_nuclear" = some (.float threshold))
    (h2 : c "DD_Emax_nuclear" = some (.float highest)) (h3 : c "DD_energy_resolution" = some (.float resolution))
    (hE : threshold ≤ highest) :
    ∃ d x, c.detector S cache = .ok (cache, .nuclear d x) ∧ CountsEvents S s "Nuclear recoil" "Nuclei" d ∧ x.nuclei = [] ∧
      (∀ (I : Integrator) E p h, I.Exact → x.dRdE S.U I d E p h = .ok 0) ∧ ∀ I p h, x.minimumDMMass S.U I d p h = .ub := by
  have hlen : t.length = 0 := by
    cases t with
    | list l =>
      cases l with
      | nil => rfl
      | cons x l => exact absurd rfl (hno x l)
    | _ => rfl
  have hlt : ¬ highest * S.U.keV < threshold * S.U.keV := not_lt.2 (mul_le_mul_of_nonneg_right hE S.U.keV_pos.le)
  have hmake : NuclearDetector.make "Nuclear recoil" (s.exposure * (S.kg * S.M.year)) [] [] =
      .ok (Detector.make "Nuclear recoil" (s.exposure * (S.kg * S.M.year)) "Nuclei",
        { nuclei := [], fractions := [], resolution := 0, usingTables := false, efficiencies := [] }) := by
    simp [NuclearDetector.make, NuclearDetector.massFractions, collect]
  set x : NuclearDetector := { nuclei := [], fractions := [], resolution := 0, usingTables := false, efficiencies := [] } with hx
  have hn : (Config.configuredResolution x (resolution * S.U.keV)).nuclei = [] := by
    unfold Config.configuredResolution; split_ifs <;> rfl
  have hth : ∀ (I : Integrator) d E ER p h,
      (Config.configuredResolution x (resolution * S.U.keV)).theoryRate S.U I d E ER p h = .ok 0 := by
    intro I d E ER p h
    unfold NuclearDetector.theoryRate
    rw [hn]; rfl
  refine ⟨{ Detector.make "Nuclear recoil" (s.exposure * (S.kg * S.M.year)) "Nuclei" with
      flatEfficiency := s.efficiency, usingEnergyThreshold := true, energyThreshold := threshold * S.U.keV,
      energyMax := highest * S.U.keV, observed := s.observed.toNat, background := s.background },
    Config.configuredResolution x (resolution * S.U.keV), ?_, ⟨rfl, rfl, (mul_assoc _ _ _).symm, rfl, rfl, toNat_max _, rfl, rfl, rfl⟩,
    hn, fun I E p h hI => ?_, fun I p h => ?_⟩
  · unfold Config.detector
    rw [Config.getString_eq hk, Outcome.bind_ok]
    unfold Config.selectDetector
    rw [if_pos rfl]
    unfold Config.nuclearDetector
    simp only [Config.lookup, ht, Outcome.bind_ok, hlen, Config.targets,
      Config.getDouble_eq h1, Config.getDouble_eq h2, Config.getDouble_eq hs.exposure, Config.getDouble_eq hs.efficiency,
      Config.getUInt_eq hs.observed, Config.getDouble_eq hs.background, Config.getDouble_eq h3, hmake,
      Detector.useEnergyThreshold, if_neg hlt, Detector.setObserved, Detector.setBackground, Detector.initializePoisson,
      ne_eq, not_true_eq_false, if_false]
    rfl
  · unfold NuclearDetector.dRdE
    simp only [hth]
    split_ifs
    · rfl
    · simp only [Outcome.valueOr0]
      rw [hI]; simp
  · unfold NuclearDetector.minimumDMMass NuclearDetector.isotopes
    rw [hn]; rfl

/-- Non-vacuity: the example file with one number instead of a list. -/
example : ∃ d x, Config.detector sampleSetup (Function.update (exampleWith "DD_experiment" "Nuclear recoil") "DD_targets_nuclear"
    (some (.float 54))) [] = .ok ([], .nuclear d x) ∧ x.nuclei = [] := by
  have hu : ∀ n, n ≠ "DD_targets_nuclear" → Function.update (exampleWith "DD_experiment" "Nuclear recoil") "DD_targets_nuclear"
    (some (.float 54)) n = exampleWith "DD_experiment" "Nuclear recoil" n := fun n hn => Function.update_of_ne hn _ _
  have hd := example_detector "Nuclear recoil"
  have hr := example_recoils "Nuclear recoil"
  obtain ⟨d, x, h1, -, h2, -⟩ := C70_fails_no_targets (S := sampleSetup) (cache := []) (t := .float 54)
    (by rw [hu _ (by decide)]; simp [exampleWith])
    ⟨by rw [hu _ (by decide)]; exact hd.exposure, by rw [hu _ (by decide)]; exact hd.efficiency, by rw [hu _ (by decide)]; exact hd.observed,
      by rw [hu _ (by decide)]; exact hd.background⟩
    (Function.update_self _ _ _) (by simp) (by rw [hu _ (by decide)]; exact hr.threshold) (by rw [hu _ (by decide)]; exact hr.highest)
    (by rw [hu _ (by decide)]; exact hr.resolution) (by norm_num)
  exact ⟨d, x, h1, h2⟩

/-- C83 (number of isotopes). `Number_of_Isotopes()` is the number of isotopes, up to the 2³² values of its type. -/
theorem C83_number_of_isotopes (n : Nucleus) :
    n.numberOfIsotopes < 2 ^ 32 ∧ n.numberOfIsotopes ≡ n.isotopes.length [MOD 2 ^ 32] ∧
      (n.isotopes.length < 2 ^ 32 → n.numberOfIsotopes = n.isotopes.length) := by
  unfold Nucleus.numberOfIsotopes
  exact ⟨Nat.mod_lt _ (by norm_num), Nat.mod_modEq _ _, fun h => Nat.mod_eq_of_lt h⟩

example : Nucleus.numberOfIsotopes { Z := none, isotopes := [], name := "" } = 0 :=
  (C83_number_of_isotopes _).2.2 (by norm_num)

end Obscura
