import Verif.Props.Quadrature
import Verif.Props.HeavyElectrons

/-!
# Property C114: the variations are finite
-/

namespace Obscura

open Spec MeasureTheory DMParticle

variable {U : Units} {I : Integrator} {S : ShellRate} {p : DMParticle} {h : Distribution} {c : Crystal} {e : AtomicElectron}

theorem bv_const {a b : ℝ} (x : ℝ) : BoundedVariationOn (fun _ => x) (Set.Icc a b) := by
  unfold BoundedVariationOn
  rw [eVariationOn.constant_on (by rintro _ ⟨_, _, rfl⟩ _ ⟨_, _, rfl⟩; rfl)]
  exact ENNReal.zero_ne_top

theorem bv_mono {f : ℝ → ℝ} {a b : ℝ} (hab : a ≤ b) (hf : MonotoneOn f (Set.Icc a b)) : BoundedVariationOn f (Set.Icc a b) := by
  have := hf.locallyBoundedVariationOn a b (Set.left_mem_Icc.2 hab) (Set.right_mem_Icc.2 hab)
  rwa [Set.inter_self] at this

theorem bv_anti {f : ℝ → ℝ} {a b : ℝ} (hab : a ≤ b) (hf : AntitoneOn f (Set.Icc a b)) : BoundedVariationOn f (Set.Icc a b) := by
  have h1 := (bv_const (a := a) (b := b) (-1)).mul (bv_mono hab hf.neg)
  have : ((fun _ => (-1 : ℝ)) * fun x => -f x) = f := by funext x; simp
  rwa [this] at h1

theorem bv_join {f : ℝ → ℝ} {a b c : ℝ} (hab : a ≤ b) (hbc : b ≤ c) (h1 : BoundedVariationOn f (Set.Icc a b))
    (h2 : BoundedVariationOn f (Set.Icc b c)) : BoundedVariationOn f (Set.Icc a c) := by
  have := eVariationOn.Icc_add_Icc f (s := Set.univ) hab hbc (Set.mem_univ b)
  simp only [Set.univ_inter] at this
  unfold BoundedVariationOn
  rw [← this]
  exact ENNReal.add_ne_top.2 ⟨h1, h2⟩

theorem bv_congr {f g : ℝ → ℝ} {a b : ℝ} (hfg : ∀ x ∈ Set.Icc a b, f x = g x) (h1 : BoundedVariationOn f (Set.Icc a b)) :
    BoundedVariationOn g (Set.Icc a b) := by
  unfold BoundedVariationOn at h1 ⊢
  rwa [← eVariationOn.congr hfg]

theorem varies_of_bv {f : ℝ → ℝ} {a b : ℝ} (h1 : BoundedVariationOn f (Set.Icc a b)) : ∃ V, VariesByAtMost f a b V :=
  ⟨(eVariationOn f (Set.Icc a b)).toReal, ENNReal.toReal_nonneg, by rw [ENNReal.ofReal_toReal h1]⟩

/-- The mean inverse speed of the particles that can transfer an energy, as a function of the momentum transfer. -/
theorem bv_speeds (hf : ProperSpeeds h) {m E a b : ℝ} (hm : 0 < m) (hE : 0 < E) (ha : 0 < a) (hab : a ≤ b) :
    BoundedVariationOn (fun q => ∫ v in {v : ℝ | v ≤ h.vMax ∧ CanTransfer m v q E}, h.pdfSpeed v / v) (Set.Icc a b) := by
  set N : ℝ → ℝ := fun w => ∫ v in Set.Icc w h.vMax, h.pdfSpeed v / v
  have hint : ∀ w, 0 < w → IntegrableOn (fun v => h.pdfSpeed v / v) (Set.Icc w h.vMax) := fun w hw => by
    by_cases hle : w ≤ h.vMax
    · have h1 : IntervalIntegrable h.pdfSpeed volume w h.vMax := hf.2.mono_set (by
        rw [Set.uIcc_of_le hle, Set.uIcc_of_le (hw.le.trans hle)]
        exact Set.Icc_subset_Icc_left hw.le)
      have h2 : IntervalIntegrable (fun v => h.pdfSpeed v * v⁻¹) volume w h.vMax := h1.mul_continuousOn (by
        rw [Set.uIcc_of_le hle]
        exact continuousOn_inv₀.mono fun x hx => (hw.trans_le hx.1).ne')
      rw [intervalIntegrable_iff_integrableOn_Icc_of_le hle] at h2
      exact h2
    · rw [Set.Icc_eq_empty hle]
      exact integrableOn_empty
  have hN : ∀ w w', 0 < w → w ≤ w' → N w' ≤ N w := fun w w' hw hle => by
    refine setIntegral_mono_set (hint w hw) ?_ (Filter.Eventually.of_forall (Set.Icc_subset_Icc_left hle))
    refine (ae_restrict_iff' measurableSet_Icc).2 (Filter.Eventually.of_forall fun v hv => ?_)
    have h0 : 0 < v := hw.trans_le hv.1
    exact div_nonneg (hf.1 v h0.le) h0.le
  have hvm : ∀ q, 0 < q → 0 < vMinimalElectrons q E m := fun q hq => by unfold vMinimalElectrons; positivity
  have hdiff : ∀ x y, 0 < x → 0 < y → vMinimalElectrons y E m - vMinimalElectrons x E m = (y - x) * (x * y - 2 * m * E) / (2 * m * x * y) :=
    fun x y hx hy => by
      unfold vMinimalElectrons
      field_simp
      ring
  refine bv_congr (f := fun q => N (vMinimalElectrons q E m)) (fun q hq => ?_) ?_
  · show _ = ∫ v in {v : ℝ | v ≤ h.vMax ∧ CanTransfer m v q E}, h.pdfSpeed v / v
    rw [canTransfer_set (ha.trans_le hq.1) hm]
  set t := Real.sqrt (2 * m * E)
  have ht : t * t = 2 * m * E := Real.mul_self_sqrt (by positivity)
  have ht0 : 0 ≤ t := Real.sqrt_nonneg _
  set s := max a (min t b)
  have has : a ≤ s := le_max_left _ _
  have hsb : s ≤ b := max_le hab (min_le_right _ _)
  refine bv_join has hsb (bv_mono has fun x hx y hy hxy => ?_) (bv_anti hsb fun x hx y hy hxy => ?_)
  · have hx0 := ha.trans_le hx.1
    have hy0 := ha.trans_le hy.1
    refine hN _ _ (hvm y hy0) (sub_nonpos.1 ?_)
    rw [hdiff x y hx0 hy0]
    refine div_nonpos_of_nonpos_of_nonneg ?_ (by positivity)
    rcases le_or_gt a (min t b) with h1 | h1
    · have e1 : s = min t b := max_eq_right h1
      have h2 : y ≤ t := hy.2.trans (e1.le.trans (min_le_left _ _))
      have h3 : x ≤ t := hxy.trans h2
      refine mul_nonpos_of_nonneg_of_nonpos (by linarith) ?_
      nlinarith
    · have e1 : s = a := max_eq_left h1.le
      have : y = x := by
        have := hy.2
        have := hx.1
        linarith
      rw [this]
      simp
  · have hx0 := ha.trans_le (has.trans hx.1)
    have hy0 := ha.trans_le (has.trans hy.1)
    refine hN _ _ (hvm x hx0) (sub_nonneg.1 ?_)
    rw [hdiff x y hx0 hy0]
    refine div_nonneg ?_ (by positivity)
    rcases le_total t b with h1 | h1
    · have h2 : t ≤ x := (min_eq_left h1 ▸ le_max_right a (min t b) : t ≤ s).trans hx.1
      refine mul_nonneg (by linarith) ?_
      nlinarith
    · have h2 : b ≤ s := min_eq_right h1 ▸ le_max_right a (min t b)
      have : y = x := by
        have := hy.2
        have := hx.1
        linarith
      rw [this]
      simp

/-- The mediator's form factor. -/
theorem bv_mediator {ff : FormFactor} {qRef mMed a b : ℝ} (ha : 0 < a) (hab : a ≤ b) :
    BoundedVariationOn (formFactor2 ff qRef mMed) (Set.Icc a b) := by
  have inv : ∀ {k : ℝ}, BoundedVariationOn (fun q : ℝ => 1 / (q * q + k)) (Set.Icc a b) ∨ k < 0 := fun {k} => by
    rcases le_or_gt 0 k with hk | hk
    · left
      refine bv_anti hab fun x hx y hy hxy => ?_
      have hx0 := ha.trans_le hx.1
      have hy0 := ha.trans_le hy.1
      show 1 / (y * y + k) ≤ 1 / (x * x + k)
      gcongr
    · right; exact hk
  have inv' : ∀ k : ℝ, 0 ≤ k → BoundedVariationOn (fun q : ℝ => 1 / (q * q + k)) (Set.Icc a b) := fun k hk =>
    inv.resolve_right (not_lt.2 hk)
  cases ff with
  | contact => exact bv_congr (fun x _ => by simp [formFactor2]) (bv_const 1)
  | general =>
    have h1 := inv' (mMed * mMed) (mul_self_nonneg _)
    have h2 := (bv_const (a := a) (b := b) ((qRef * qRef + mMed * mMed) ^ 2)).mul (h1.mul h1)
    refine bv_congr (fun x _ => ?_) h2
    simp only [formFactor2, Pi.mul_apply]
    ring
  | longRange =>
    have h1 := inv' 0 le_rfl
    have h2 := (bv_const (a := a) (b := b) ((qRef * qRef) ^ 2)).mul (h1.mul h1)
    refine bv_congr (fun x hx => ?_) h2
    have := ha.trans_le hx.1
    simp only [formFactor2, Pi.mul_apply]
    field_simp
    ring
  | electricDipole =>
    have h1 := inv' 0 le_rfl
    have h2 := (bv_const (a := a) (b := b) (qRef ^ 2)).mul h1
    refine bv_congr (fun x hx => ?_) h2
    have := ha.trans_le hx.1
    simp only [formFactor2, Pi.mul_apply]
    field_simp
    ring

/-- The cross section at a positive speed, with the speed factored out. -/
theorem dSigmadq2Electron_factor {q v : ℝ} (p : DMParticle) : p.dSigmadq2Electron U q v = p.dSigmadq2Electron U q 1 * (v ^ 2)⁻¹ := by
  unfold dSigmadq2Electron
  split <;> simp only [mul_one, mul_pow, div_eq_mul_inv, mul_inv] <;> ring

theorem bv_sigma {a b : ℝ} (ha : 0 < a) (hab : a ≤ b) : BoundedVariationOn (fun q => p.dSigmadq2Electron U q 1) (Set.Icc a b) := by
  rcases hi : p.interaction with ⟨ff, qRef, mMed⟩ | _
  · refine bv_congr (fun x _ => ?_) ((bv_const (p.sigmaElectronRef / (2 * reducedMass p.mass U.mElectron * 1) ^ 2)).mul
      (bv_mediator (ff := ff) (qRef := qRef) (mMed := mMed) ha hab))
    unfold dSigmadq2Electron
    rw [hi]
    rfl
  · refine bv_congr (fun x _ => ?_) (bv_const (p.sigmaElectronRef / (2 * reducedMass p.mass U.mElectron * 1) ^ 2))
    unfold dSigmadq2Electron
    rw [hi]

/-- C114 (the variation is finite, semiconductors): for every particle, every energy and every distribution with a density of speeds, if
the crystal form factor at that energy is of bounded variation. -/
theorem C114_crystal_defined (hc : BuiltCrystal U c) (hm : 0 < p.mass) (hf : ProperSpeeds h) {E W : ℝ} (hE : 0 < E)
    (hW : VariesByAtMost (fun q => c.formFactor q E) 0 c.qMax W) : ∃ V, VariesByAtMost (crystalPerMomentum U p h c E) 0 c.qMax V := by
  have hfc := CrystalFacts.of_built hc
  have hdq := hfc.dq_pos
  have hle : c.dq ≤ c.qMax := by rw [hfc.qMax]; linarith
  have hff : BoundedVariationOn (fun q => c.formFactor q E) (Set.Icc 0 c.qMax) := ne_top_of_le_ne_top ENNReal.ofReal_ne_top hW.2
  refine varies_of_bv (bv_join hdq.le hle ?_ ?_)
  · have h1 : BoundedVariationOn (fun q : ℝ => if q < c.dq then (0 : ℝ) else 1) (Set.Icc 0 c.dq) := bv_mono hdq.le fun x _ y _ hxy => by
      show (if x < c.dq then (0 : ℝ) else 1) ≤ if y < c.dq then (0 : ℝ) else 1
      split_ifs with k1 k2
      · exact le_rfl
      · exact zero_le_one
      · exact absurd (hxy.trans_lt ‹_›) k1
      · exact le_rfl
    refine bv_congr (fun q hq => ?_) ((bv_const (crystalPerMomentum U p h c E c.dq)).mul h1)
    show _ * (if q < c.dq then (0 : ℝ) else 1) = _
    split_ifs with k
    · have : ∀ v, crystalCrossSection U p c q E v = 0 := fun v => by
        unfold crystalCrossSection Crystal.formFactor
        rw [if_pos (.inl k)]
        split <;> simp
      unfold crystalPerMomentum
      simp [this]
    · have : q = c.dq := le_antisymm hq.2 (not_lt.1 k)
      rw [mul_one, this]
  · rcases hi : p.interaction with ⟨ff, qRef, mMed⟩ | _
    · have h1 : BoundedVariationOn (fun q : ℝ => 4 * U.aEM * U.mElectron ^ 2 / q ^ 2) (Set.Icc c.dq c.qMax) :=
        bv_anti hle fun x hx y hy hxy => by
          have := hdq.trans_le hx.1
          have := U.aEM_pos
          show 4 * U.aEM * U.mElectron ^ 2 / y ^ 2 ≤ 4 * U.aEM * U.mElectron ^ 2 / x ^ 2
          gcongr
      refine bv_congr (fun q hq => ?_) ((h1.mul (bv_sigma (U := U) (p := p) hdq hle)).mul ((hff.mono (Set.Icc_subset_Icc_left hdq.le)).mul
        (bv_speeds hf hm hE hdq hle)))
      have hq0 := hdq.trans_le hq.1
      simp only [Pi.mul_apply]
      unfold crystalPerMomentum crystalCrossSection
      rw [hi]
      dsimp only
      rw [← mul_assoc, ← integral_const_mul, ← integral_const_mul]
      have hset : MeasurableSet {v : ℝ | v ≤ h.vMax ∧ CanTransfer p.mass v q E} := by
        rw [canTransfer_set hq0 hm]; exact measurableSet_Icc
      refine setIntegral_congr_fun hset fun v hv => ?_
      rw [canTransfer_set hq0 hm] at hv
      have hv0 : 0 < v := lt_of_lt_of_le (by unfold vMinimalElectrons; positivity) hv.1
      rw [dSigmadq2Electron_factor (v := v) p]
      field_simp
      ring
    · refine bv_congr (fun q _ => ?_) (bv_const 0)
      unfold crystalPerMomentum crystalCrossSection
      rw [hi]
      simp

/-- C114 (the variation is finite, ionization). -/
theorem C114_electron_recoil_defined (hm : 0 < p.mass) (hf : ProperSpeeds h) (hB : 0 < e.binding) {E W lo hi : ℝ} (hE : 0 < E)
    (hlo : 0 < lo) (hle : lo ≤ hi) (hW : VariesByAtMost (fun q => e.ionizationFormFactor U q E) lo hi W) :
    ∃ V, VariesByAtMost (fun q => q * ionizationPerMomentum U p h e E q) lo hi V := by
  have hff : BoundedVariationOn (fun q => e.ionizationFormFactor U q E) (Set.Icc lo hi) := ne_top_of_le_ne_top ENNReal.ofReal_ne_top hW.2
  refine varies_of_bv ?_
  rcases hp : p.interaction with ⟨ff, qRef, mMed⟩ | _
  · have h1 : BoundedVariationOn (fun q : ℝ => 2 * q ^ 2 * (1 / (4 * E))) (Set.Icc lo hi) := bv_mono hle fun x hx y hy hxy => by
      have := hlo.trans_le hx.1
      show 2 * x ^ 2 * (1 / (4 * E)) ≤ 2 * y ^ 2 * (1 / (4 * E))
      gcongr
    refine bv_congr (fun q hq => ?_) ((h1.mul (bv_sigma (U := U) (p := p) hlo hle)).mul (hff.mul
      (bv_speeds hf hm (E := e.binding + E) (by positivity) hlo hle)))
    have hq0 := hlo.trans_le hq.1
    simp only [Pi.mul_apply]
    unfold ionizationPerMomentum ionizationCrossSection
    rw [hp]
    dsimp only
    rw [← mul_assoc, ← mul_assoc, ← integral_const_mul, ← integral_const_mul]
    have hset : MeasurableSet {v : ℝ | v ≤ h.vMax ∧ CanTransfer p.mass v q (e.binding + E)} := by
      rw [canTransfer_set hq0 hm]; exact measurableSet_Icc
    refine setIntegral_congr_fun hset fun v hv => ?_
    rw [canTransfer_set hq0 hm] at hv
    have hv0 : 0 < v := lt_of_lt_of_le (by unfold vMinimalElectrons; positivity) hv.1
    rw [dSigmadq2Electron_factor (v := v) p]
    field_simp
  · refine bv_congr (fun q _ => ?_) (bv_const 0)
    unfold ionizationPerMomentum ionizationCrossSection
    rw [hp]
    simp

/-- C114 (falling spectra): when the spectrum falls, three times its value at the lowest energy of the bin bounds everything. -/
theorem C114_pairs_falling (hc : BuiltCrystal U c) {Q : ℕ} (h1 : 1 ≤ Q) {f : ℝ → ℝ}
    (hr : ∀ E, 0 < E → E ≤ c.eMax → dRdEeCrystal U I E p h c = .ok (f E))
    (htop : c.gap + (Q : ℝ) * c.epsilon ≤ c.eMax) (h0 : ∀ E, 0 ≤ f E)
    (hfall : AntitoneOn f (Set.Icc (c.gap + ((Q : ℝ) - 1) * c.epsilon) (c.gap + (Q : ℝ) * c.epsilon))) :
    ∃ r, rQCrystal U I Q p h c = .ok r ∧
      |r - ∫ E in c.gap + ((Q : ℝ) - 1) * c.epsilon..c.gap + (Q : ℝ) * c.epsilon, f E| ≤
        0.3 * U.eV * f (c.gap + ((Q : ℝ) - 1) * c.epsilon) := by
  have he := (CrystalFacts.of_built hc).eps_pos
  have hle : c.gap + ((Q : ℝ) - 1) * c.epsilon ≤ c.gap + (Q : ℝ) * c.epsilon := by nlinarith
  set A := c.gap + ((Q : ℝ) - 1) * c.epsilon
  set B := c.gap + (Q : ℝ) * c.epsilon
  have hA : A ∈ Set.Icc A B := Set.left_mem_Icc.2 hle
  have hB : B ∈ Set.Icc A B := Set.right_mem_Icc.2 hle
  have hV : VariesByAtMost f A B (f A) := by
    refine ⟨h0 A, ?_⟩
    have hm : MonotoneOn (fun x => f (-x)) (Set.Icc (-B) (-A)) := fun x hx y hy hxy =>
      hfall ⟨by linarith [hy.2], by linarith [hy.1]⟩ ⟨by linarith [hx.2], by linarith [hx.1]⟩ (by linarith)
    have e1 := eVariationOn.comp_le_of_antitoneOn (fun x => f (-x)) (s := Set.Icc (-B) (-A)) (t := Set.Icc A B) (fun x => -x)
      (fun x _ y _ hxy => neg_le_neg hxy) (fun x hx => ⟨by linarith [hx.2], by linarith [hx.1]⟩)
    have e2 := (hm.eVariationOn_eq (a := -B) (b := -A) (Set.left_mem_Icc.2 (by linarith)) (Set.right_mem_Icc.2 (by linarith))).le
    rw [Set.inter_self] at e2
    have e3 : ((fun x => f (-x)) ∘ fun x => -x) = f := by funext x; simp
    rw [e3] at e1
    refine e1.trans (e2.trans (ENNReal.ofReal_le_ofReal ?_))
    rw [neg_neg, neg_neg]
    linarith [h0 B]
  obtain ⟨r, r1, r2⟩ := C114_pairs (M := f A) hc h1 hr htop (fun E ha hb => ⟨h0 E, hfall hA ⟨ha, hb⟩ ha⟩) hV
  exact ⟨r, r1, r2.trans (le_of_eq (by ring))⟩

/-! ## Non-vacuity -/

/-- All speeds up to `1` are equally likely. -/
noncomputable def uniformHalo : Distribution where
  density := 1
  vMin := 0
  vMax := 1
  useEta := false
  pdfSpeed := fun _ => 1
  cdfSpeed := fun v => v
  eta := fun _ => .exit

theorem uniformHalo_proper : ProperSpeeds uniformHalo := ⟨fun _ _ => zero_le_one, intervalIntegrable_const⟩

/-- Non-vacuity: silicon with a table of ones, for every particle and all energies. -/
example (hI : I.Exact) (hm : 0 < p.mass) {E : ℝ} (hE : 0 < E) : ∃ c V r, BuiltCrystal U c ∧ dRdEeCrystal U I E p uniformHalo c = .ok r ∧
    |r - crystalIntegral U p uniformHalo c E| ≤ 1 / (p.mass * c.mCell) * (0.02 * U.aEM * U.mElectron * V) := by
  obtain ⟨c, hc, -, hint⟩ := builtCrystal_exists U
  have hfc := CrystalFacts.of_built hc
  have hq : (0 : ℝ) ≤ c.qMax := by rw [hfc.qMax]; have := hfc.dq_pos; positivity
  have hcol : BoundedVariationOn (fun q => c.formFactor q E) (Set.Icc 0 c.qMax) := by
    by_cases hk : E < c.dE ∨ c.eMax < E
    · refine bv_congr (fun q _ => ?_) (bv_const 0)
      unfold Crystal.formFactor
      rw [if_pos (.inr (.inr hk))]
    · refine bv_mono hq fun x hx y hy hxy => ?_
      show c.formFactor x E ≤ c.formFactor y E
      unfold Crystal.formFactor
      rw [hint, hint]
      split_ifs with k1 k2 k2
      · exact le_rfl
      · exact zero_le_one
      · rcases k2 with k2 | k2 | k2
        · exact absurd (.inl (hxy.trans_lt k2)) k1
        · exact absurd hy.2 (not_le.2 k2)
        · exact absurd k2 hk
      · exact le_rfl
  obtain ⟨W, hW⟩ := varies_of_bv hcol
  obtain ⟨V, hV⟩ := C114_crystal_defined (p := p) (h := uniformHalo) hc hm uniformHalo_proper hE hW
  obtain ⟨r, r1, r2⟩ := C114_crystal hI hc hm (h := uniformHalo) zero_le_one hE.le (fun _ h => by cases h) hV
  exact ⟨c, V, r, hc, r1, r2⟩

/-- A shell with a table of ones. -/
theorem shell_exists : ∃ e : AtomicElectron, BuiltShell e ∧ e.kGrid.length = 2 ∧ e.secondaries = 0 ∧ e.kMin = 1 ∧ e.kMax = 2 ∧
    e.qMin = 1 ∧ e.qMax = 2 ∧ e.binding = 1 ∧ e.responses = List.replicate 4 (fun _ _ => 1) := by
  obtain ⟨e, he⟩ := AtomicElectron.make_ok (P := fun _ _ _ _ _ => 1) (tables := fun _ => some [[1, 1], [1, 1]]) (element := "Xe") (letter := "p")
    (N := 5) (L := 1) (B := 1) (k0 := 1) (k1 := 2) (q0 := 1) (q1 := 2) (s := 0) rfl fun r _ => ⟨_, _, rfl, by simp, rfl, by simp⟩
  obtain ⟨_, rs, _, _, hrs, e0, _, _, eB, es, e1, e2, e5, e6, nk, nq, hk, _, _, _, e3, _, e4, _⟩ := AtomicElectron.make_eq he
  have : rs = List.replicate 4 (2, 2, fun _ _ => 1) := (Outcome.ok.inj hrs).symm
  refine ⟨e, ⟨_, _, _, _, _, _, _, _, _, _, _, by norm_num, by norm_num, by norm_num, by norm_num, he⟩, ?_, es, e1, e2, e5, e6, eB, ?_⟩
  · rw [e3, logSpace_length, ← hk, this]
    rfl
  · rw [e0, this]
    rfl

/-- Non-vacuity: the ionization of a shell with a table of ones by a particle of mass 4. -/
example (hI : I.Exact) (hm : p.mass = 4) {d : Detector} {n : Nucleus} (hM : 0 < n.averageMass) (hflat : 0 ≤ d.flatEfficiency) {E : ℝ}
    (hE : 0 < E) : ∃ e lo hi V r, BuiltShell e ∧ lo < min hi e.qMax ∧ shellRateER U I uniformHalo d E p n e = .ok r ∧
      |r - d.flatEfficiency * ionizationIntegral U p uniformHalo n.averageMass e lo (min hi e.qMax) E| ≤
        d.flatEfficiency * (1 / (p.mass * n.averageMass) * (Real.log (min hi e.qMax / lo) / 99 * V)) := by
  obtain ⟨e, he, -, -, -, -, q0, q1, hB, hresp⟩ := shell_exists
  have hm0 : 0 < p.mass := by rw [hm]; norm_num
  have hs : Real.sqrt 8 * Real.sqrt 8 = 8 := Real.mul_self_sqrt (by norm_num)
  have hs0 := Real.sqrt_nonneg 8
  have hset : ∀ q, CanTransfer p.mass uniformHalo.vMax q e.binding ↔ 4 - Real.sqrt 8 ≤ q ∧ q ≤ 4 + Real.sqrt 8 := fun q => by
    unfold CanTransfer
    rw [hm, hB, show uniformHalo.vMax = 1 from rfl]
    constructor
    · intro h
      have : (q - 4) ^ 2 ≤ Real.sqrt 8 ^ 2 := by nlinarith
      have := abs_le_of_sq_le_sq' this hs0
      constructor <;> linarith [this.1, this.2]
    · rintro ⟨h1, h2⟩
      nlinarith
  have s2 : (2 : ℝ) < Real.sqrt 8 := by nlinarith
  have s3 : Real.sqrt 8 < 4 := by nlinarith
  have s4 : Real.sqrt 8 < 3 := by nlinarith
  have hlo : IsLeast {q | CanTransfer p.mass uniformHalo.vMax q e.binding} (4 - Real.sqrt 8) :=
    ⟨(hset _).2 ⟨le_rfl, by linarith⟩, fun q hq => ((hset q).1 hq).1⟩
  have hhi : IsGreatest {q | CanTransfer p.mass uniformHalo.vMax q e.binding} (4 + Real.sqrt 8) :=
    ⟨(hset _).2 ⟨by linarith, le_rfl⟩, fun q hq => ((hset q).1 hq).2⟩
  have hmin : min (4 + Real.sqrt 8) e.qMax = 2 := by rw [q1]; exact min_eq_right (by linarith)
  have hcol : BoundedVariationOn (fun q => e.ionizationFormFactor U q E) (Set.Icc (4 - Real.sqrt 8) 2) := by
    by_cases hk : 1.000001 * e.kMax < Real.sqrt (2 * U.mElectron * E) ∨ Real.sqrt (2 * U.mElectron * E) < 0.999999 * e.kMin
    · refine bv_congr (fun q _ => ?_) (bv_const 0)
      unfold AtomicElectron.ionizationFormFactor AtomicElectron.response
      dsimp only
      rw [if_pos (.inr hk)]
      rfl
    · have hone : ∀ q ∈ Set.Icc (4 - Real.sqrt 8) 2, 1 = e.ionizationFormFactor U q E := fun q hq => by
        unfold AtomicElectron.ionizationFormFactor AtomicElectron.response
        dsimp only
        rw [if_neg (by
          rintro (h | h)
          · rw [q1] at h
            linarith [hq.2]
          · exact hk h), if_pos rfl, hresp, show vecGet (List.replicate 4 fun _ _ : ℝ => (1 : ℝ)) 0 = .ok fun _ _ => 1 from rfl,
          Outcome.bind_ok, if_pos (by rw [q0]; linarith [hq.1, s4])]
        rfl
      exact bv_congr hone (bv_const 1)
  obtain ⟨W, hW⟩ := varies_of_bv hcol
  obtain ⟨V, hV⟩ := C114_electron_recoil_defined (p := p) (h := uniformHalo) (e := e) hm0 uniformHalo_proper (by rw [hB]; exact one_pos) hE
    (by linarith) (by linarith) hW
  obtain ⟨r, r1, r2⟩ := C114_electron_recoil hI (p := p) (h := uniformHalo) (e := e) (d := d) (n := n) hm0 one_pos (by rw [hB]; exact one_pos) hM
    zero_le_one hflat hE hlo hhi (by rw [q1]; linarith) (fun _ h => by cases h) (V := V) (by rw [hmin]; exact hV)
  exact ⟨e, _, _, V, r, he, by rw [hmin]; linarith, r1, r2⟩

/-- Non-vacuity: the spectrum for which the sum is too large, for every detector. -/
example {d : Detector} {n : Nucleus} : ∃ (e : AtomicElectron) (r : ℕ → ℝ), BuiltShell e ∧
    (∀ ne < 2 ^ 32, IonizationDetector.rNeShell U (fun _ E _ _ _ => .ok (1 / E)) d ne p (kinetic U 2) n e = .ok (r ne)) ∧
    ∑ ne ∈ Finset.Icc 1 2, r ne = 2 * ∫ E in kinetic U 1..kinetic U 2, 1 / E := by
  have hme := U.mElectron_pos
  obtain ⟨e, he, hlen, hsec, k0, k1, -⟩ := shell_exists
  have hk : 0 < kinetic U 2 := by unfold kinetic; positivity
  obtain ⟨-, r, r1, r2, -⟩ := C114_fails_electrons (U := U) (S := fun _ E _ _ _ => .ok (1 / E)) (p := p) (e := e) (d := d) (n := n) (W := kinetic U 2) he
    hlen.ge hk (fun _ _ => rfl) (M := 2) (by norm_num) (by rw [hsec, k1, div_self hk.ne']; norm_num)
  rw [hlen, k0, k1] at r2
  refine ⟨e, r, he, r1, r2.trans ?_⟩
  norm_num

end Obscura
