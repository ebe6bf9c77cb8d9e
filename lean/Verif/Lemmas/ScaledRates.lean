import Verif.Props.MassesElectron
import Verif.Lemmas.Ionization

/-!
# Numbers of ionization electrons grow with the rates of the shells
-/

namespace Obscura

open Spec

variable {U : Units} {S S' : ShellRate} {d : Detector} {x : IonizationDetector} {p p' : DMParticle} {k k' : ℝ}

/-- If both computations succeed, their results are ordered after multiplication with `k` and `k'`. -/
def Scaled (k k' : ℝ) (a b : Outcome ℝ) : Prop := ∀ x y, a = .ok x → b = .ok y → k * x ≤ k' * y

theorem Scaled.times {s : ℝ} {a b : Outcome ℝ} (hs : 0 ≤ s) (hab : Scaled k k' a b) : Scaled k k' (a >>= fun r => .ok (s * r)) (b >>= fun r => .ok (s * r)) := by
  intro x y hx hy
  obtain ⟨r, e1, hx⟩ := Outcome.bind_eq_ok.1 hx
  obtain ⟨r', e2, hy⟩ := Outcome.bind_eq_ok.1 hy
  cases hx
  cases hy
  have := mul_le_mul_of_nonneg_left (hab _ _ e1 e2) hs
  linarith

theorem Scaled.after {α : Type} {c : Outcome α} {f g : α → Outcome ℝ} (hfg : ∀ v, c = .ok v → Scaled k k' (f v) (g v)) : Scaled k k' (c >>= f) (c >>= g) := by
  intro x y hx hy
  obtain ⟨v, e1, hx⟩ := Outcome.bind_eq_ok.1 hx
  rw [e1, Outcome.bind_ok] at hy
  exact hfg v e1 x y hx hy

theorem Scaled.sumOver {α : Type} {f g : α → Outcome ℝ} {l : List α} (hfg : ∀ a ∈ l, Scaled k k' (f a) (g a)) : Scaled k k' (sumOver f l) (sumOver g l) := by
  intro x y hx hy
  obtain ⟨xs, e1, hx'⟩ := Outcome.bind_eq_ok.1 hx
  obtain ⟨ys, e2, hy'⟩ := Outcome.bind_eq_ok.1 hy
  cases hx'
  cases hy'
  clear hx hy
  rw [foldl_add_eq_sum, foldl_add_eq_sum]
  induction l generalizing xs ys with
  | nil => cases e1; cases e2; simp
  | cons a l ih =>
    rw [collect] at e1 e2
    obtain ⟨x, fx, e1⟩ := Outcome.bind_eq_ok.1 e1
    obtain ⟨xs', e1', e1⟩ := Outcome.bind_eq_ok.1 e1
    obtain ⟨y, gy, e2⟩ := Outcome.bind_eq_ok.1 e2
    obtain ⟨ys', e2', e2⟩ := Outcome.bind_eq_ok.1 e2
    cases e1
    cases e2
    have h1 := hfg a (by simp) x y fx gy
    have h2 := ih (fun b hb => hfg b (by simp [hb])) _ e1' _ e2'
    rw [List.sum_cons, List.sum_cons]
    linarith

theorem pdfNe_nonneg {ne : ℕ} {E W w : ℝ} {s : ℕ} (hw : pdfNe ne E W s = .ok w) : 0 ≤ w := by
  unfold pdfNe at hw
  dsimp only at hw
  obtain ⟨_, _, hw⟩ := Outcome.bind_eq_ok.1 hw
  obtain ⟨_, _, hw⟩ := Outcome.bind_eq_ok.1 hw
  cases hw
  unfold pmfBinomial
  norm_num

/-- The shells of the detector have ordered rates at all tabulated energies. -/
def ScaledShells (U : Units) (x : IonizationDetector) (k k' : ℝ) (f g : ℝ → Nucleus → AtomicElectron → Outcome ℝ) : Prop :=
  ∀ a ∈ x.atoms, ∀ e ∈ a.electrons, 0 ≤ e.dlogk ∧ ∀ q ∈ e.kGrid, Scaled k k' (f (q * q / 2 / U.mElectron) a.nucleus e) (g (q * q / 2 / U.mElectron) a.nucleus e)

theorem rNe_scaled (hfr : ∀ y ∈ x.fractions, 0 ≤ y) (hS : ScaledShells U x k k' (fun E n e => S d E p n e) fun E n e => S' d E p' n e) (ne : ℕ) :
    Scaled k k' (x.rNe U S d ne p) (x.rNe U S' d ne p') := by
  have hme := U.mElectron_pos
  unfold IonizationDetector.rNe
  refine Scaled.sumOver fun i _ => Scaled.after fun a ha => Scaled.after fun f hf => Scaled.times (hfr f (List.mem_of_getElem? (vecGet_some hf))) ?_
  have ha := List.mem_of_getElem? (vecGet_some ha)
  unfold IonizationDetector.rNeAtom
  refine Scaled.sumOver fun e he => ?_
  obtain ⟨h0, hk⟩ := hS a ha e he
  unfold IonizationDetector.rNeShell
  refine Scaled.sumOver fun q hq => Scaled.after fun w hw => Scaled.times ?_ (hk q hq)
  have := pdfNe_nonneg hw
  have hl : 0 ≤ Real.log 10 := Real.log_nonneg (by norm_num)
  have : 0 ≤ Real.log 10 * e.dlogk * (q * q) / U.mElectron * w := by
    have := mul_self_nonneg q
    positivity
  convert this using 1
  ring

end Obscura
