import Verif.Model.Configuration

/-!
# What a configuration file says

The keys are those documented in `bin/config.cfg`; nothing here refers to how the file is processed.
-/

namespace Obscura.Spec

/-- The values of the settings of the section "Dark matter particle" (masses in GeV and MeV, cross sections in cm²). -/
structure ParticleSettings where
  mass : ℝ
  spin : ℝ
  fraction : ℝ
  light : Bool
  interaction : String
  formFactor : String
  mediator : ℝ
  fp : ℝ
  fn : ℝ
  sigmaNucleon : ℝ
  sigmaElectron : ℝ

/-- The file contains these values. Form factor and mediator mass are only needed for "SI", the mediator mass only for the form
factor "General", the relative couplings only if isospin is not conserved (else both are 1). -/
structure DescribesParticle (c : Config) (s : ParticleSettings) : Prop where
  mass : c "DM_mass" = some (.float s.mass)
  spin : c "DM_spin" = some (.float s.spin)
  fraction : c "DM_fraction" = some (.float s.fraction)
  light : c "DM_light" = some (.bool s.light)
  interaction : c "DM_interaction" = some (.string s.interaction)
  formFactor : s.interaction = "SI" → c "DM_form_factor" = some (.string s.formFactor)
  mediator : s.interaction = "SI" → s.formFactor = "General" → c "DM_mediator_mass" = some (.float s.mediator)
  couplings : (c "DM_isospin_conserved" = some (.bool true) ∧ s.fp = 1 ∧ s.fn = 1) ∨
    c "DM_isospin_conserved" = some (.bool false) ∧
      ∃ more, c "DM_relative_couplings" = some (.list (.float s.fp :: .float s.fn :: more))
  sigmaNucleon : c "DM_cross_section_nucleon" = some (.float s.sigmaNucleon)
  sigmaElectron : c "DM_cross_section_electron" = some (.float s.sigmaElectron)

/-- The interaction, the form factor and the mediator mass are admissible. -/
def AdmissibleInteraction (U : Units) (s : ParticleSettings) : Prop :=
  s.interaction = "SD" ∨ s.interaction = "SI" ∧ s.formFactor ∈ ["Contact", "Electric-Dipole", "Long-Range", "General"] ∧
    (s.formFactor = "General" → 1 / 10 ^ 60 ≤ s.mediator * U.MeV)

/-- The names of the settings a particle always needs. -/
def particleKeys : List String :=
  ["DM_mass", "DM_spin", "DM_fraction", "DM_light", "DM_interaction", "DM_isospin_conserved", "DM_cross_section_nucleon",
   "DM_cross_section_electron"]

end Obscura.Spec
