import Mathlib.Data.Int.Notation
import Mathlib.Tactic.NormNum
import Mathlib.Analysis.SpecialFunctions.Trigonometric.Basic

/-!
# Specification: calendars

The civil calendar, independent of the code.
-/

namespace Obscura

/-- A calendar date. -/
structure Date where
  day : ℤ
  month : ℤ
  year : ℤ

/-- Leap years of the Gregorian calendar (the one in civil use). -/
def gregorianLeap (y : ℤ) : Prop := y % 4 = 0 ∧ (y % 100 ≠ 0 ∨ y % 400 = 0)

/-- Leap years of the Julian calendar. -/
def julianLeap (y : ℤ) : Prop := y % 4 = 0

instance (y : ℤ) : Decidable (gregorianLeap y) := by unfold gregorianLeap; infer_instance
instance (y : ℤ) : Decidable (julianLeap y) := by unfold julianLeap; infer_instance

/-- Number of days of a month. -/
def daysInMonth (leap : Bool) (m : ℤ) : ℤ :=
  if m = 2 then (if leap then 29 else 28)
  else if m = 4 ∨ m = 6 ∨ m = 9 ∨ m = 11 then 30 else 31

/-- A valid date of the calendar with the given leap-year rule. -/
def Date.Valid (leap : ℤ → Bool) (d : Date) : Prop :=
  1 ≤ d.month ∧ d.month ≤ 12 ∧ 1 ≤ d.day ∧ d.day ≤ daysInMonth (leap d.year) d.month

/-- The following day. -/
def Date.next (leap : ℤ → Bool) (d : Date) : Date :=
  if d.day < daysInMonth (leap d.year) d.month then ⟨d.day + 1, d.month, d.year⟩
  else if d.month < 12 then ⟨1, d.month + 1, d.year⟩
  else ⟨1, 1, d.year + 1⟩

/-- The Gregorian and the Julian successor. -/
def Date.nextGregorian : Date → Date := Date.next (fun y => decide (gregorianLeap y))
def Date.nextJulian : Date → Date := Date.next (fun y => decide (julianLeap y))

/-- Valid in the Gregorian calendar. -/
def Date.ValidGregorian : Date → Prop := Date.Valid (fun y => decide (gregorianLeap y))
def Date.ValidJulian : Date → Prop := Date.Valid (fun y => decide (julianLeap y))

/-- `d` is before `e`. -/
def Date.before (d e : Date) : Prop :=
  d.year < e.year ∨ (d.year = e.year ∧ (d.month < e.month ∨ (d.month = e.month ∧ d.day < e.day)))

/-! ## Sidereal time

The formulae of the U.S. Naval Observatory (Circular 179 and the page on approximate sidereal time), in seconds, for a time `n` in
days since J2000.0. -/

/-- Greenwich mean sidereal time. -/
noncomputable def greenwichMean (n : ℝ) : ℝ :=
  86400 * (0.779057273264 + 1.00273781191135448 * n) + 0.00096707 + 307.47710227 * (n / 36525) + 0.092772113 * (n / 36525) ^ 2

/-- Degrees to radians. -/
noncomputable def rad (x : ℝ) : ℝ := x * (Real.pi / 180)

/-- Obliquity of the ecliptic, longitude of the lunar node, mean longitude of the Sun. -/
noncomputable def obliquity (n : ℝ) : ℝ := rad (23.439279444 - 0.01301021361 * (n / 36525))
noncomputable def lunarNode (n : ℝ) : ℝ := rad (125.04455501 - 0.05295376 * n)
noncomputable def solarLongitude (n : ℝ) : ℝ := rad (280.47 + 0.98565 * n)

/-- The equation of the equinoxes: nutation in longitude `-1.1484 sin Ω - 0.0864 sin 2L` times `cos ε`, and the complementary
terms. -/
noncomputable def equationOfEquinoxes (n : ℝ) : ℝ :=
  (-1.1484 * Real.sin (lunarNode n) - 0.0864 * Real.sin (2 * solarLongitude n)) * Real.cos (obliquity n) +
    0.000176 * Real.sin (lunarNode n) + 0.000004 * Real.sin (2 * lunarNode n)

/-- Local apparent sidereal time in seconds, not reduced to a day. -/
noncomputable def localApparent (n longitude : ℝ) : ℝ :=
  greenwichMean n + equationOfEquinoxes n + longitude / (2 * Real.pi) * 86400

end Obscura
