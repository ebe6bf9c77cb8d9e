import Verif.Props.Experiments
import Verif.Props.IonizationSample

/-!
# An installation in which all experiments can be selected

The shipped nuclear data, tables of ones for the shells and for silicon, one event in the window of every list of events. The
hypothesis `Installed` of the theorems on experiments is therefore not void.
-/

namespace Obscura

open Spec

/-- The average mass of a nucleus heavier than hydrogen is positive if it has natural isotopes. -/
theorem shipped_averageMass (U : Units) {Z : ℕ} (hZ : 2 ≤ Z)
    (hs : 0 < ((element U shippedTable Z).isotopes.map Isotope.abundance).sum) : 0 < (element U shippedTable Z).averageMass := by
  have hmN := U.mNucleon_pos
  unfold Nucleus.averageMass
  rw [← List.foldl_map (f := fun iso : Isotope => iso.mass * iso.abundance), foldl_add_eq_sum]
  have h2 := (C60_abundances_partial (U := U)).1
  have h3 := (C51_shipped_table (U := U)).2.2
  have hall : ∀ iso ∈ (element U shippedTable Z).isotopes, 1 * U.mNucleon * iso.abundance ≤ iso.mass * iso.abundance := by
    intro iso hiso
    obtain ⟨r, hr, rfl⟩ := List.mem_map.1 hiso
    obtain ⟨hr1, hr2⟩ := List.mem_filter.1 hr
    have hA := h3 r hr1
    rw [of_decide_eq_true hr2] at hA
    refine mul_le_mul_of_nonneg_right ?_ (h2 r hr1)
    change _ ≤ if r.A = 1 then U.mProton else r.A * U.mNucleon
    rw [if_neg (by omega)]
    have : (1 : ℝ) ≤ r.A := by exact_mod_cast (by omega : 1 ≤ r.A)
    nlinarith
  have h4 := List.sum_le_sum hall
  rw [List.sum_map_mul_left] at h4
  have : 0 < 1 * U.mNucleon * ((element U shippedTable Z).isotopes.map Isotope.abundance).sum := by positivity
  linarith

/-- An installation. -/
noncomputable def sampleSetup : Setup where
  U := Units.sample
  M := { gram := 1, year := 1, gram_pos := one_pos, year_pos := one_pos }
  P := fun _ _ _ _ _ => 1
  files :=
    { nuclear := some shippedTable
      response := fun _ => some [[1, 1], [1, 1]]
      crystal := fun t => if t = "Si" then some (List.replicate (500 * 900) 1) else none
      numbers := fun f => some [if f = "data/CRESST-surface/data.txt" then 0.1 else 1]
      efficiency := fun _ => some fun _ => 1 }

theorem sampleSetup_installed : Installed sampleSetup shippedTable where
  nuclear := rfl
  complete := (C51_shipped_table (U := Units.sample)).1
  masses := by
    have h := (C60_abundances_partial (U := sampleSetup.U)).2
    obtain ⟨h20, -, h54, -⟩ := C60_fails (U := sampleSetup.U)
    intro Z hZ
    refine shipped_averageMass _ ?_ ?_
    · fin_cases hZ <;> norm_num
    · fin_cases hZ
      · rw [h 8 (by norm_num) (by norm_num) (by simp)]; norm_num
      · rw [h 13 (by norm_num) (by norm_num) (by simp)]; norm_num
      · rw [h 14 (by norm_num) (by norm_num) (by simp)]; norm_num
      · rw [h20]; norm_num
      · rw [h54]; norm_num
      · rw [h 74 (by norm_num) (by norm_num) (by simp)]; norm_num
  xenon := fun s _ r _ => ⟨_, _, rfl, by simp, rfl, by simp⟩
  argon := fun s _ r _ => ⟨_, _, rfl, by simp, rfl, by simp⟩
  silicon := ⟨List.replicate (500 * 900) 1, by simp only [sampleSetup, if_true], by rw [List.length_replicate]⟩
  events := by
    intro e he file hf
    refine ⟨[if file = "data/CRESST-surface/data.txt" then 0.1 else 1], rfl, ?_⟩
    simp only [recoilSearches, List.mem_cons, List.not_mem_nil, or_false] at he
    rcases he with rfl | rfl | rfl | rfl | rfl <;> cases hf <;> simp <;> norm_num
  efficiencies := fun f _ => ⟨_, rfl⟩
  tables := fun e _ f _ => ⟨_, rfl⟩

/-- Non-vacuity of the C55 theorems: a file that asks for an experiment. -/
example : ∃ c : Config, ∃ cache' d x, c.detector sampleSetup [] = .ok (cache', .nuclear d x) ∧ d.name = "CRESST-II" := by
  obtain ⟨cache', d, x, h1, h2⟩ := C55_nuclear sampleSetup_installed (cache := []) .start
    (c := fun k => if k = "DD_experiment" then some (.string "CRESST-II") else none)
    (e := { name := "CRESST-II", exposure := fun S => 52.15 * (S.kg * S.day), composition := [(8, 4), (20, 1), (74, 1)],
            lowest := 307, highest := 40000, efficiency := 1, resolution := 61.4,
            tables := ["data/CRESST-II/Lise_eff_AR_O.dat", "data/CRESST-II/Lise_eff_AR_Ca.dat", "data/CRESST-II/Lise_eff_AR_W.dat"],
            data := .listed "data/CRESST-II/Lise_AR.dat" }) (by simp [recoilSearches]) rfl
  exact ⟨_, cache', d, x, h1, h2.name⟩

end Obscura
