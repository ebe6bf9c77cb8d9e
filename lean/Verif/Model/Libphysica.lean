import Verif.Basic
import Mathlib.MeasureTheory.Integral.IntervalIntegral.Basic
import Mathlib.Analysis.SpecialFunctions.Pow.Real
import Mathlib.Analysis.SpecialFunctions.Exp
import Mathlib.Data.Nat.Choose.Basic

/-!
# The functions of libphysica used by obscura

libphysica is not part of `/repo`. Functions whose meaning is fixed by their name are defined here
mathematically; numerical routines are parameters (`Integrator`, `RootFinder`) whose contracts are
hypotheses of the theorems that need them. This file is part of the trusted base.
-/

namespace Obscura

/-- `libphysica::Reduced_Mass(m1, m2)`. -/
noncomputable def reducedMass (m1 m2 : ℝ) : ℝ := m1 * m2 / (m1 + m2)

/-- `libphysica::StepFunction(x)`. -/
noncomputable def stepFunction (x : ℝ) : ℝ := if 0 ≤ x then 1 else 0

/-- The error function `erf` of `<cmath>`. Called in `src/DM_Halo_Models.cpp:78-151`. -/
noncomputable def erf (x : ℝ) : ℝ := 2 / Real.sqrt Real.pi * ∫ t in (0 : ℝ)..x, Real.exp (-t ^ 2)

/-- `libphysica::Erfi(x)`, the imaginary error function. -/
noncomputable def erfi (x : ℝ) : ℝ := 2 / Real.sqrt Real.pi * ∫ t in (0 : ℝ)..x, Real.exp (t ^ 2)

/-- `libphysica::Linear_Space(a, b, n)` for `n ≥ 2`: `n` equidistant points from `a` to `b`. -/
noncomputable def linearSpace (a b : ℝ) (n : ℕ) : List ℝ :=
  (List.range n).map fun i : ℕ => a + (i : ℝ) * ((b - a) / ((n : ℝ) - 1))

/-- `libphysica::CDF_Poisson(mu, n)`: probability of at most `n` events when `mu` are expected. -/
noncomputable def cdfPoisson (mu : ℝ) (n : ℕ) : ℝ :=
  ∑ k ∈ Finset.range (n + 1), Real.exp (-mu) * mu ^ k / (k.factorial : ℝ)

/-- `libphysica::PMF_Binomial(trials, p, x)`. -/
noncomputable def pmfBinomial (trials : ℕ) (p : ℝ) (x : ℕ) : ℝ :=
  (trials.choose x : ℝ) * p ^ x * (1 - p) ^ (trials - x)

/-- `libphysica::PDF_Gauss(x, mu, sigma)`. -/
noncomputable def pdfGauss (x mu sigma : ℝ) : ℝ :=
  1 / (Real.sqrt (2 * Real.pi) * sigma) * Real.exp (-((x - mu) / sigma) ^ 2 / 2)

/-- `libphysica::Log_Likelihood_Poisson(s, n, b)`: log of the Poisson probability of `n` events when
`s + b` are expected. -/
noncomputable def logLikelihoodPoisson (s : ℝ) (n : ℕ) (b : ℝ) : ℝ :=
  n * Real.log (s + b) - Real.log (n.factorial : ℝ) - (s + b)

/-- `libphysica::Integrate(f, a, b)`: a numerical quadrature, left abstract. -/
abbrev Integrator := (ℝ → ℝ) → ℝ → ℝ → ℝ

/-- The contract "the quadrature is exact". Called in `src/DM_Particle.cpp:68`. -/
def Integrator.Exact (I : Integrator) : Prop :=
  ∀ f a b, I f a b = ∫ x in a..b, f x

/-- The exact integral as an integrator (shows that the contract can be met). Called in `src/DM_Particle.cpp:68`. -/
noncomputable def exactIntegrator : Integrator := fun f a b => ∫ x in a..b, f x

theorem exactIntegrator_exact : Integrator.Exact exactIntegrator := fun _ _ _ => rfl

/-- The contract "the quadrature scales with its integrand" (met by every linear quadrature rule). -/
def Integrator.Homogeneous (I : Integrator) : Prop :=
  ∀ (c : ℝ) f a b, I (fun x => c * f x) a b = c * I f a b

theorem Integrator.Exact.homogeneous {I : Integrator} (h : I.Exact) : I.Homogeneous := by
  intro c f a b
  rw [h, h, intervalIntegral.integral_const_mul]

/-- `libphysica::Find_Root(f, a, b, accuracy)`: a bracketing root finder, left abstract. The library exits with an
error when `f a` and `f b` have the same strict sign (`Find_Root` requires a bracket). -/
abbrev RootFinder := (ℝ → ℝ) → ℝ → ℝ → ℝ

/-- The contract "a bracketed root is found exactly" (the tolerance is not modelled). Called in `src/Direct_Detection.cpp:383`. -/
def RootFinder.Exact (R : RootFinder) : Prop :=
  ∀ f a b, a ≤ b → f a * f b ≤ 0 → ContinuousOn f (Set.Icc a b) → R f a b ∈ Set.Icc a b ∧ f (R f a b) = 0

/-- `libphysica::Integrate_2D(f, a, b, c, d)`: a numerical quadrature, left abstract. -/
abbrev Integrator2 := (ℝ → ℝ → ℝ) → ℝ → ℝ → ℝ → ℝ → ℝ

/-- The contract "the two-dimensional quadrature is exact". Called in `src/DM_Distribution.cpp:35-42`. -/
def Integrator2.Exact (I : Integrator2) : Prop :=
  ∀ f a b c d, I f a b c d = ∫ x in a..b, ∫ y in c..d, f x y

/-- `libphysica::Interpolation(xs, ys)`: an interpolating function, left abstract. -/
abbrev Interpolator := List ℝ → List ℝ → ℝ → ℝ

/-- The contract "the interpolating function passes through the given points", for increasing abscissae.
Called in `src/DM_Distribution.cpp:191-209`. -/
def Interpolator.Nodes (P : Interpolator) : Prop :=
  ∀ xs ys : List ℝ, xs.length = ys.length → xs.Pairwise (· < ·) →
    ∀ (i : ℕ) (h : i < xs.length) (h' : i < ys.length), P xs ys xs[i] = ys[i]

theorem reducedMass_pos {m1 m2 : ℝ} (h1 : 0 < m1) (h2 : 0 < m2) : 0 < reducedMass m1 m2 := by
  unfold reducedMass; positivity

theorem reducedMass_comm (m1 m2 : ℝ) : reducedMass m1 m2 = reducedMass m2 m1 := by
  unfold reducedMass; rw [mul_comm, add_comm]

end Obscura
