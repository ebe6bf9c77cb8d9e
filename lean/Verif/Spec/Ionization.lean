import Verif.Model.Ionization
import Verif.Spec.Detector
import Verif.Spec.NuclearData
import Mathlib.MeasureTheory.Integral.Bochner.Set

/-!
# Specification vocabulary for atomic targets and ionization detectors
-/

namespace Obscura.Spec

open Obscura MeasureTheory

variable (U : Units)

/-- All four response tables of a shell exist, with at least two rows and columns. -/
def HasTables (tables : ResponseTables) (shell : String) : Prop :=
  ∀ r ∈ [1, 2, 3, 4], ∃ t row, tables (shell ++ "_" ++ toString r) = some t ∧ 2 ≤ t.length ∧ t[0]? = some row ∧ 2 ≤ row.length

/-- The occupied shells of a xenon atom, outermost first: name, binding energy in eV, number of secondary electrons. -/
noncomputable def xenon : List (String × ℝ × ℕ) :=
  [("Xe_5p", 12.4433, 0), ("Xe_5s", 25.6986, 0), ("Xe_4d", 75.5897, 4), ("Xe_4p", 163.495, 6), ("Xe_4s", 213.781, 3),
   ("Xe_3d", 710.73, 0), ("Xe_3p", 958.43, 0), ("Xe_3s", 1093.24, 0), ("Xe_2p", 4837.71, 0), ("Xe_2s", 5149.21, 0),
   ("Xe_1s", 33317.6, 0)]

/-- The occupied shells of an argon atom. -/
noncomputable def argon : List (String × ℝ × ℕ) :=
  [("Ar_3p", 16.0824, 0), ("Ar_3s", 34.7585, 0), ("Ar_2p", 260.453, 0), ("Ar_2s", 335.303, 0), ("Ar_1s", 3227.55, 0)]

/-- A shell produced by the constructor, with ordered positive momentum ranges. -/
def BuiltShell (e : AtomicElectron) : Prop :=
  ∃ P tables element N L binding kMin kMax qMin qMax secondaries, 0 < kMin ∧ kMin < kMax ∧ 0 < qMin ∧ qMin < qMax ∧
    AtomicElectron.make P tables element N L binding kMin kMax qMin qMax secondaries = .ok e

/-- An atom produced by the constructor `Atom(name)`. -/
def BuiltAtom (a : Atom) : Prop :=
  ∃ P tables file cache name cache', Atom.make U P tables file cache name = .ok (cache', a)

/-- A particle of mass `m` and speed `v` can transfer the momentum `q` and the energy `E` to an electron. -/
def CanTransfer (m v q E : ℝ) : Prop := E ≤ q * v - q ^ 2 / (2 * m)

/-- The doubly differential ionization cross section in terms of the free-electron one and the form factor. There is none for
spin-dependent interactions. -/
noncomputable def ionizationCrossSection (p : DMParticle) (e : AtomicElectron) (q E v : ℝ) : ℝ :=
  match p.interaction with
  | .SI _ _ _ => 1 / (4 * E) * p.dSigmadq2Electron U q v * e.ionizationFormFactor U q E
  | .SD => 0

/-- The textbook ionization rate of a shell per target mass: 100 momentum transfers, equidistant in the logarithm between `lo` and
`hi`, and for each of them all speeds with which the binding energy and the kinetic energy `E` can be transferred. -/
noncomputable def ionizationRate (p : DMParticle) (h : Distribution) (M : ℝ) (e : AtomicElectron) (lo hi E : ℝ) : ℝ :=
  h.density / (p.mass * M) * ∑ i ∈ Finset.range 100,
    2 * (lo * (hi / lo) ^ ((i : ℝ) / 99)) ^ 2 * (Real.log (hi / lo) / 99) *
      ∫ v in {v : ℝ | v ≤ h.vMax ∧ CanTransfer p.mass v (lo * (hi / lo) ^ ((i : ℝ) / 99)) (e.binding + E)},
        v * h.pdfSpeed v * ionizationCrossSection U p e (lo * (hi / lo) ^ ((i : ℝ) / 99)) E v

/-- The Migdal cross section: a nuclear recoil times the ionization probability of an electron that receives the momentum
`m_e / M` of the recoil. -/
noncomputable def migdalCrossSection (p : DMParticle) (iso : Isotope) (e : AtomicElectron) (ER E v : ℝ) : ℝ :=
  1 / (4 * E) * p.dSigmadERNucleus U ER iso v *
    e.ionizationFormFactor U (U.mElectron / iso.mass * Real.sqrt (2 * iso.mass * ER)) E

/-- The textbook Migdal rate of an isotope and shell per target mass: all recoil energies and all speeds that can produce the recoil
and the ionization; energy and momentum conservation involve the reduced mass. -/
noncomputable def migdalRate (p : DMParticle) (h : Distribution) (iso : Isotope) (e : AtomicElectron) (E : ℝ) : ℝ :=
  h.density / (p.mass * iso.mass) * ∫ ER in Set.Ioi (0 : ℝ),
    ∫ v in {v : ℝ | v ≤ h.vMax ∧
        CanTransfer (p.mass * iso.mass / (p.mass + iso.mass)) v (Real.sqrt (2 * iso.mass * ER)) (e.binding + E)},
      v * h.pdfSpeed v * migdalCrossSection U p iso e ER E v

/-- The shell rate vanishes when the kinetic energy of the fastest particle does not cover binding energy and electron energy. -/
def Kinematic (S : ShellRate) (h : Distribution) (a : Atom) : Prop :=
  ∀ d E p, 0 < p.mass → ∀ e ∈ a.electrons, p.mass / 2 * h.vMax ^ 2 < e.binding + E → S d E p a.nucleus e = .ok 0

/-- The integral over the electron energy of `g`, with `dE = k^2 / m_e d(ln k)` on the tabulated momenta of the shell. -/
noncomputable def spectrumSum (e : AtomicElectron) (g : ℝ → ℝ) : ℝ :=
  (e.kGrid.map fun k => g (k ^ 2 / (2 * U.mElectron)) * (k ^ 2 / U.mElectron) *
    (Real.log (e.kMax / e.kMin) / ((e.kGrid.length : ℝ) - 1))).sum

/-- The electrons that can be released besides the primary one: the secondary electrons of the shell and one per work function. -/
noncomputable def extraElectrons (e : AtomicElectron) (W E : ℝ) : ℕ := e.secondaries + ⌊E / W⌋₊

/-- The probability that `n` electrons leave when `N` besides the primary one can: each of them does with probability `5/6`. -/
noncomputable def releaseProbability (N : ℕ) : ℕ → ℝ
  | 0 => 0
  | n + 1 => N.choose n * (5 / 6) ^ n * (1 / 6) ^ (N - n)

/-- An ionization detector fresh from one of the constructors. -/
def BuiltIonization (s : Detector × IonizationDetector) : Prop :=
  (∃ P tables file cache label expo target atom cache',
    IonizationDetector.makeOne U P tables file cache label expo target atom = .ok (cache', s)) ∨
  (∃ P tables file cache label expo target atoms given cache',
    IonizationDetector.make U P tables file cache label expo target atoms given = .ok (cache', s))

/-- `s` results from construction and some finite history of configuration calls none of which failed. -/
def ReachableIonization (s : Detector × IonizationDetector) : Prop :=
  ∃ s₀ ops, BuiltIonization U s₀ ∧ IonizationDetector.run s₀ ops = .ok s

end Obscura.Spec
