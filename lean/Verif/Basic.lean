import Mathlib.Analysis.Real.Sqrt
import Mathlib.Analysis.Real.Pi.Bounds

/-!
# Outcomes of C++ code

Every stateful model function returns an `Outcome`, so that error exits, undefined behaviour and
non-finite arithmetic stay visible in the theorems.
-/

namespace Obscura

/-- What running a piece of the C++ code can lead to.
`ok a`      : it returned `a`;
`exit`      : it called `std::exit(EXIT_FAILURE)` or left through an uncaught exception;
`ub`        : it executed an operation with undefined behaviour;
`nonfinite` : it divided by zero or took the root of a negative number, so that the IEEE result is an
              infinity or NaN, about which the model (real numbers) says nothing further. -/
inductive Outcome (α : Type) where
  | ok (a : α)
  | exit
  | ub
  | nonfinite

namespace Outcome

/-- Sequencing: anything but `ok` stops the computation. -/
def bind {α β : Type} : Outcome α → (α → Outcome β) → Outcome β
  | ok a, f => f a
  | exit, _ => exit
  | ub, _ => ub
  | nonfinite, _ => nonfinite

instance : Monad Outcome where
  pure := ok
  bind := bind

@[simp] theorem bind_ok {α β : Type} (a : α) (f : α → Outcome β) : (ok a >>= f) = f a := rfl
@[simp] theorem bind_exit {α β : Type} (f : α → Outcome β) : ((exit : Outcome α) >>= f) = exit := rfl
@[simp] theorem bind_ub {α β : Type} (f : α → Outcome β) : ((ub : Outcome α) >>= f) = ub := rfl
@[simp] theorem bind_nonfinite {α β : Type} (f : α → Outcome β) :
    ((nonfinite : Outcome α) >>= f) = nonfinite := rfl
@[simp] theorem pure_eq {α : Type} (a : α) : (pure a : Outcome α) = ok a := rfl
@[simp] theorem map_ok {α β : Type} (f : α → β) (a : α) : (f <$> ok a : Outcome β) = ok (f a) := rfl

theorem bind_eq_ok {α β : Type} {x : Outcome α} {f : α → Outcome β} {b : β} :
    (x >>= f) = ok b ↔ ∃ a, x = ok a ∧ f a = ok b := by
  cases x <;> simp

end Outcome

/-- Division of doubles: a zero divisor gives an infinity or NaN. As in `src/DM_Particle_Standard.cpp:57`. -/
noncomputable def fdiv (a b : ℝ) : Outcome ℝ := if b = 0 then .nonfinite else .ok (a / b)

/-- `sqrt` of doubles: a negative argument gives NaN. As in `src/DM_Particle_Standard.cpp:57`. -/
noncomputable def fsqrt (a : ℝ) : Outcome ℝ := if a < 0 then .nonfinite else .ok (Real.sqrt a)

/-- `v[i]` on a `std::vector` (no bounds check): reading outside is undefined behaviour. As in `src/Direct_Detection.cpp:109-114`. -/
def vecGet {α : Type} (l : List α) (i : Nat) : Outcome α :=
  match l[i]? with
  | some a => .ok a
  | none => .ub

theorem fdiv_ok {a b : ℝ} (h : b ≠ 0) : fdiv a b = .ok (a / b) := by simp [fdiv, h]
theorem fdiv_zero (a : ℝ) : fdiv a 0 = .nonfinite := by simp [fdiv]
theorem fsqrt_ok {a : ℝ} (h : 0 ≤ a) : fsqrt a = .ok (Real.sqrt a) := by simp [fsqrt, not_lt.2 h]

theorem vecGet_lt {α : Type} {l : List α} {i : Nat} (h : i < l.length) : vecGet l i = .ok l[i] := by
  simp [vecGet, h]

theorem vecGet_ge {α : Type} {l : List α} {i : Nat} (h : l.length ≤ i) : vecGet l i = .ub := by
  simp [vecGet, h]

/-- `a - b` on `unsigned int` (32 bit, wraps around), for `a, b < 2^32`. As in `src/DM_Particle_Standard.cpp:297`. -/
def usub32 (a b : Nat) : Nat := if b ≤ a then a - b else a + 2 ^ 32 - b

theorem usub32_of_le {a b : Nat} (h : b ≤ a) : usub32 a b = a - b := by simp [usub32, h]

/-- The physical constants and units used by the code. Their numerical values are defined in libphysica
(`Natural_Units.hpp`), outside `/repo`; the theorems only use that they are positive. -/
structure Units where
  /-- proton mass -/
  mProton : ℝ
  /-- electron mass -/
  mElectron : ℝ
  /-- mean nucleon mass -/
  mNucleon : ℝ
  /-- fine-structure constant -/
  aEM : ℝ
  cm : ℝ
  sec : ℝ
  eV : ℝ
  fm : ℝ
  mProton_pos : 0 < mProton
  mElectron_pos : 0 < mElectron
  mNucleon_pos : 0 < mNucleon
  aEM_pos : 0 < aEM
  cm_pos : 0 < cm
  sec_pos : 0 < sec
  eV_pos : 0 < eV
  fm_pos : 0 < fm

/-- Some positive values, to show that `Units` is inhabited (used in non-vacuity examples only). -/
noncomputable def Units.sample : Units where
  mProton := 1
  mElectron := 1 / 2000
  mNucleon := 1
  aEM := 1 / 137
  cm := 5 * 10 ^ 13
  sec := 10 ^ 24
  eV := 1 / 10 ^ 9
  fm := 5
  mProton_pos := by norm_num
  mElectron_pos := by norm_num
  mNucleon_pos := by norm_num
  aEM_pos := by norm_num
  cm_pos := by norm_num
  sec_pos := by norm_num
  eV_pos := by norm_num
  fm_pos := by norm_num

namespace Units
variable (U : Units)
/-- `keV`, `MeV`, `GeV` of `libphysica/Natural_Units.hpp`. -/
noncomputable def keV : ℝ := 1000 * U.eV
noncomputable def MeV : ℝ := 1000000 * U.eV
noncomputable def GeV : ℝ := 1000000000 * U.eV
/-- `km` of `libphysica/Natural_Units.hpp`. -/
noncomputable def km : ℝ := 100000 * U.cm
theorem keV_pos : 0 < U.keV := by have := U.eV_pos; unfold keV; positivity
theorem MeV_pos : 0 < U.MeV := by have := U.eV_pos; unfold MeV; positivity
theorem GeV_pos : 0 < U.GeV := by have := U.eV_pos; unfold GeV; positivity
theorem km_pos : 0 < U.km := by have := U.cm_pos; unfold km; positivity
end Units

end Obscura
