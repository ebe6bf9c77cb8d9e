import Verif.Spec.Particle
import Mathlib.Tactic.FieldSimp
import Mathlib.Tactic.Linarith
import Mathlib.Tactic.LinearCombination

namespace Obscura
open DMParticle Spec

variable {U : Units}

/-- Facts true in every reachable state. -/
structure BaseInv (p : DMParticle) : Prop where
  pre : 0 < p.prefactor
  mass : 0 < p.mass
  norm : p.fpRel + p.fnRel = 1 ∨ p.fnRel = 1
  xs : p.usingCrossSection = true
  eta : p.useEtaFunction = true

theorem BaseInv.fn_ne {p : DMParticle} (h : BaseInv p) (hp : ¬ 0 < p.fpRel) : p.fnRel ≠ 0 := by
  rcases h.norm with h1 | h1
  · intro h0; rw [h0] at h1; linarith
  · rw [h1]; exact one_ne_zero

noncomputable def cpl (U : Units) (p : DMParticle) (s : ℝ) : ℝ :=
  Real.sqrt (Real.pi * s / p.prefactor) / reducedMass p.mass U.mProton

theorem couplingOf_ok {p : DMParticle} {s : ℝ} (hp : 0 < p.prefactor) (hm : 0 < p.mass) (hs : 0 ≤ s) :
    p.couplingOf U s = .ok (cpl U p s) := by
  have hmu := reducedMass_pos hm U.mProton_pos
  have h1 : 0 ≤ Real.pi * s / p.prefactor := by have := Real.pi_pos; positivity
  simp [couplingOf, fdiv_ok hp.ne', fsqrt_ok h1, fdiv_ok hmu.ne', cpl]

theorem cpl_sq {p : DMParticle} {s : ℝ} (hp : 0 < p.prefactor) (hm : 0 < p.mass) (hs : 0 ≤ s) :
    p.prefactor * cpl U p s * cpl U p s * reducedMass p.mass U.mProton * reducedMass p.mass U.mProton / Real.pi
      = s := by
  have hmu := reducedMass_pos hm U.mProton_pos
  have h1 : 0 ≤ Real.pi * s / p.prefactor := by have := Real.pi_pos; positivity
  have hpi := Real.pi_pos
  have h2 := Real.mul_self_sqrt h1
  unfold cpl
  generalize Real.sqrt (Real.pi * s / p.prefactor) = r at *
  generalize reducedMass p.mass U.mProton = μ at *
  have : p.prefactor * (r / μ) * (r / μ) * μ * μ / Real.pi = p.prefactor * (r * r) / Real.pi := by
    field_simp
  rw [this, h2]
  field_simp

theorem cpl_nonneg {p : DMParticle} {s : ℝ} (hm : 0 < p.mass) : 0 ≤ cpl U p s := by
  have hmu := reducedMass_pos hm U.mProton_pos
  unfold cpl; positivity

/-- The coupling recomputed from the cross section of coupling `f` is `|f|`. -/
theorem cpl_of_sigma {p : DMParticle} (f : ℝ) (hp : 0 < p.prefactor) (hm : 0 < p.mass) :
    cpl U p (p.prefactor * f * f * reducedMass p.mass U.mProton * reducedMass p.mass U.mProton / Real.pi) = |f| := by
  have hmu := reducedMass_pos hm U.mProton_pos
  have hpi := Real.pi_pos
  unfold cpl
  generalize reducedMass p.mass U.mProton = μ at *
  have : Real.pi * (p.prefactor * f * f * μ * μ / Real.pi) / p.prefactor = (f * μ) ^ 2 := by
    field_simp
  rw [this, Real.sqrt_sq_eq_abs, abs_mul, abs_of_pos hmu]
  field_simp

theorem sigmaProton_nonneg {p : DMParticle} (hp : 0 < p.prefactor) : 0 ≤ p.sigmaProton U := by
  have hpi := Real.pi_pos
  have : p.sigmaProton U = p.prefactor * (p.fp * reducedMass p.mass U.mProton) ^ 2 / Real.pi := by
    unfold sigmaProton; ring
  rw [this]; positivity

theorem sigmaNeutron_nonneg {p : DMParticle} (hp : 0 < p.prefactor) : 0 ≤ p.sigmaNeutron U := by
  have hpi := Real.pi_pos
  have : p.sigmaNeutron U = p.prefactor * (p.fn * reducedMass p.mass U.mProton) ^ 2 / Real.pi := by
    unfold sigmaNeutron; ring
  rw [this]; positivity

theorem sigmaProton_eq_zero {p : DMParticle} (hp : 0 < p.prefactor) (hm : 0 < p.mass) :
    p.sigmaProton U = 0 ↔ p.fp = 0 := by
  have hmu := (reducedMass_pos hm U.mProton_pos).ne'
  have hpi := Real.pi_pos.ne'
  simp [sigmaProton, hmu, hpi, hp.ne']

/-! ### What the setters do, in the successful case -/

theorem setSigmaProton_fixed {p : DMParticle} {s : ℝ} (hp : 0 < p.prefactor) (hm : 0 < p.mass) (hs : 0 ≤ s)
    (hf : p.fixedRelation = true) (hr : p.fpRel ≠ 0) :
    p.setSigmaProton U s = .ok { p with fp := cpl U p s, fn := p.fnRel / p.fpRel * cpl U p s } := by
  simp [setSigmaProton, hf, hr, couplingOf_ok hp hm hs, fdiv_ok hr]

theorem setSigmaNeutron_fixed {p : DMParticle} {s : ℝ} (hp : 0 < p.prefactor) (hm : 0 < p.mass) (hs : 0 ≤ s)
    (hf : p.fixedRelation = true) (hr : p.fnRel ≠ 0) :
    p.setSigmaNeutron U s = .ok { p with fn := cpl U p s, fp := p.fpRel / p.fnRel * cpl U p s } := by
  simp [setSigmaNeutron, hf, hr, couplingOf_ok hp hm hs, fdiv_ok hr]

theorem setSigmaProton_unfixed {p : DMParticle} {s : ℝ} (hp : 0 < p.prefactor) (hm : 0 < p.mass) (hs : 0 ≤ s)
    (hf : p.fixedRelation = false) :
    p.setSigmaProton U s = .ok { p with fp := cpl U p s } := by
  simp [setSigmaProton, hf, couplingOf_ok hp hm hs]

theorem setSigmaNeutron_unfixed {p : DMParticle} {s : ℝ} (hp : 0 < p.prefactor) (hm : 0 < p.mass) (hs : 0 ≤ s)
    (hf : p.fixedRelation = false) :
    p.setSigmaNeutron U s = .ok { p with fn := cpl U p s } := by
  simp [setSigmaNeutron, hf, couplingOf_ok hp hm hs]

theorem cpl_sigmaProton {p : DMParticle} (hp : 0 < p.prefactor) (hm : 0 < p.mass) :
    cpl U p (p.sigmaProton U) = |p.fp| := cpl_of_sigma p.fp hp hm

theorem cpl_sigmaNeutron {p : DMParticle} (hp : 0 < p.prefactor) (hm : 0 < p.mass) :
    cpl U p (p.sigmaNeutron U) = |p.fn| := cpl_of_sigma p.fn hp hm

theorem setMass_fixed_p {p : DMParticle} {m : ℝ} (hp : 0 < p.prefactor) (hm : 0 < m)
    (hf : p.fixedRelation = true) (hr : p.fpRel ≠ 0) :
    p.setMass U m = .ok { p with mass := m, fp := cpl U { p with mass := m } (p.sigmaProton U), fn := p.fnRel / p.fpRel * cpl U { p with mass := m } (p.sigmaProton U) } := by
  have h := setSigmaProton_fixed (U := U) (p := { p with mass := m }) hp hm (sigmaProton_nonneg (U := U) hp) hf hr
  unfold DMParticle.setMass
  rw [if_pos hf, if_pos hr]
  exact h

theorem setMass_fixed_n {p : DMParticle} {m : ℝ} (hp : 0 < p.prefactor) (hm : 0 < m)
    (hf : p.fixedRelation = true) (hr : p.fpRel = 0) (hn : p.fnRel ≠ 0) :
    p.setMass U m = .ok { p with mass := m, fn := cpl U { p with mass := m } (p.sigmaNeutron U), fp := p.fpRel / p.fnRel * cpl U { p with mass := m } (p.sigmaNeutron U) } := by
  have h := setSigmaNeutron_fixed (U := U) (p := { p with mass := m }) hp hm (sigmaNeutron_nonneg (U := U) hp) hf hn
  unfold DMParticle.setMass
  rw [if_pos hf, if_neg (not_not.2 hr)]
  exact h

theorem setMass_unfixed {p : DMParticle} {m : ℝ} (hp : 0 < p.prefactor) (hm : 0 < m)
    (hf : p.fixedRelation = false) :
    p.setMass U m = .ok { p with mass := m, fp := cpl U { p with mass := m } (p.sigmaProton U), fn := cpl U { p with mass := m } (p.sigmaNeutron U) } := by
  have h := setSigmaProton_unfixed (U := U) (p := { p with mass := m }) hp hm (sigmaProton_nonneg (U := U) hp) hf
  have h' := setSigmaNeutron_unfixed (U := U)
    (p := { p with mass := m, fp := cpl U { p with mass := m } (p.sigmaProton U) }) hp hm (sigmaNeutron_nonneg (U := U) hp) hf
  unfold DMParticle.setMass
  rw [if_neg (by simp [hf]), h, Outcome.bind_ok]
  exact h'

/-- Shape of the result of `Set_Sigma_Proton`. -/
theorem setSigmaProton_shape {p p' : DMParticle} {s : ℝ} (h : p.setSigmaProton U s = .ok p') :
    ∃ x y, p' = { p with fp := x, fn := y } ∧
      (p.fixedRelation = true → (p.fpRel = 0 ∧ x = 0 ∧ y = p.fn) ∨ (p.fpRel ≠ 0 ∧ y = p.fnRel / p.fpRel * x)) := by
  unfold setSigmaProton at h
  split_ifs at h with h1 h2
  · injection h with h; exact ⟨0, p.fn, by rw [← h], fun _ => .inl ⟨h2, rfl, rfl⟩⟩
  · obtain ⟨c, _, h⟩ := Outcome.bind_eq_ok.1 h
    rw [fdiv_ok h2] at h
    injection h with h
    exact ⟨c, _, h.symm, fun _ => .inr ⟨h2, rfl⟩⟩
  · obtain ⟨c, _, h⟩ := Outcome.bind_eq_ok.1 h
    injection h with h
    exact ⟨c, p.fn, h.symm, fun h3 => absurd h3 h1⟩

theorem setSigmaNeutron_shape {p p' : DMParticle} {s : ℝ} (h : p.setSigmaNeutron U s = .ok p') :
    ∃ x y, p' = { p with fp := x, fn := y } ∧
      (p.fixedRelation = true → (p.fnRel = 0 ∧ y = 0 ∧ x = p.fp) ∨ (p.fnRel ≠ 0 ∧ x = p.fpRel / p.fnRel * y)) := by
  unfold setSigmaNeutron at h
  split_ifs at h with h1 h2
  · injection h with h; exact ⟨p.fp, 0, by rw [← h], fun _ => .inl ⟨h2, rfl, rfl⟩⟩
  · obtain ⟨c, _, h⟩ := Outcome.bind_eq_ok.1 h
    rw [fdiv_ok h2] at h
    injection h with h
    exact ⟨_, c, h.symm, fun _ => .inr ⟨h2, rfl⟩⟩
  · obtain ⟨c, _, h⟩ := Outcome.bind_eq_ok.1 h
    injection h with h
    exact ⟨p.fp, c, h.symm, fun h3 => absurd h3 h1⟩

/-- The couplings obey the stored ratio. -/
def RelOK (p : DMParticle) : Prop := p.fixedRelation = true → p.fp * p.fnRel = p.fn * p.fpRel

theorem RelOK.setSigmaProton {p p' : DMParticle} {s : ℝ} (_hr : RelOK p)
    (h : p.setSigmaProton U s = .ok p') : RelOK p' := by
  obtain ⟨x, y, rfl, h2⟩ := setSigmaProton_shape h
  intro hf
  rcases h2 hf with ⟨h3, rfl, rfl⟩ | ⟨h3, rfl⟩
  · show 0 * p.fnRel = p.fn * p.fpRel
    rw [h3]; ring
  · show x * p.fnRel = p.fnRel / p.fpRel * x * p.fpRel
    field_simp

theorem RelOK.setSigmaNeutron {p p' : DMParticle} {s : ℝ} (_hr : RelOK p)
    (h : p.setSigmaNeutron U s = .ok p') : RelOK p' := by
  obtain ⟨x, y, rfl, h2⟩ := setSigmaNeutron_shape h
  intro hf
  rcases h2 hf with ⟨h3, rfl, rfl⟩ | ⟨h3, rfl⟩
  · show p.fp * p.fnRel = 0 * p.fpRel
    rw [h3]; ring
  · show p.fpRel / p.fnRel * y * p.fnRel = y * p.fpRel
    field_simp

theorem BaseInv.withCouplings {p : DMParticle} (h : BaseInv p) (x y : ℝ) :
    BaseInv { p with fp := x, fn := y } := ⟨h.pre, h.mass, h.norm, h.xs, h.eta⟩

theorem BaseInv.withMass {p : DMParticle} (h : BaseInv p) {m : ℝ} (hm : 0 < m) :
    BaseInv { p with mass := m } := ⟨h.pre, hm, h.norm, h.xs, h.eta⟩

theorem built_inv {p : DMParticle} (h : Built U p) : BaseInv p ∧ RelOK p ∧ p.fpRel = p.fnRel := by
  rcases h with ⟨m, s, hm, h⟩ | ⟨m, s, hm, h⟩
  all_goals
    obtain ⟨x, y, rfl, h2⟩ := setSigmaProton_shape h
    refine ⟨⟨?_, hm, .inl ?_, rfl, rfl⟩, ?_, rfl⟩
    · simp [standard]
    · simp [standard]; norm_num
    · refine RelOK.setSigmaProton ?_ h
      intro _; simp [standard]

/-- What a ratio-fixing call does to a particle whose proton coupling is not zero, or more generally what is
known about the result. -/
theorem fixCouplingRatio_shape {p p' : DMParticle} {a b : ℝ} (h : p.fixCouplingRatio a b = .ok p') :
    a + b ≠ 0 ∧ ∃ x y, p' = { p with fixedRelation := true, fpRel := a / (a + b), fnRel := b / (a + b), fp := x, fn := y } ∧
      (p.fp ≠ 0 → x * b = y * a) := by
  unfold fixCouplingRatio fdiv at h
  by_cases h0 : a + b = 0
  · simp [h0] at h
  refine ⟨h0, ?_⟩
  simp only [h0, if_false, Outcome.bind_ok] at h
  split_ifs at h with h1 h2 h3 h4 h5 h6
  · injection h with h; subst h1
    exact ⟨0, p.fp, by rw [← h], fun _ => by ring⟩
  · injection h with h; subst h2
    exact ⟨p.fn, 0, by rw [← h], fun _ => by ring⟩
  · cases h
  · injection h with h
    refine ⟨p.fp, _, by rw [← h], fun _ => ?_⟩
    field_simp
  · cases h
  · injection h with h
    refine ⟨_, p.fn, by rw [← h], fun h7 => absurd h7 h3⟩

theorem fixFnOverFp_shape {p p' : DMParticle} {r : ℝ} (h : p.fixFnOverFp r = .ok p') :
    1 + r ≠ 0 ∧ ∃ x y, p' = { p with fixedRelation := true, fpRel := 1 / (1 + r), fnRel := r / (1 + r), fp := x, fn := y } ∧
      (p.fp ≠ 0 → x * r = y) := by
  unfold fixFnOverFp fdiv at h
  by_cases h0 : 1 + r = 0
  · simp [h0] at h
  refine ⟨h0, ?_⟩
  simp only [h0, if_false, Outcome.bind_ok] at h
  split_ifs at h with h1 h2 h3 h4
  · cases h
  · injection h with h
    refine ⟨p.fp, _, by rw [← h], fun _ => ?_⟩
    field_simp
  · cases h
  · injection h with h
    refine ⟨_, p.fn, by rw [← h], fun h7 => absurd h7 h1⟩

theorem fixFpOverFn_shape {p p' : DMParticle} {r : ℝ} (h : p.fixFpOverFn r = .ok p') :
    ∃ x y, p' = { p with fixedRelation := true, fpRel := r, fnRel := 1, fp := x, fn := y } ∧
      (p.fp ≠ 0 → x = y * r) := by
  unfold fixFpOverFn fdiv at h
  simp only [one_ne_zero, if_false, Outcome.bind_ok] at h
  split_ifs at h with h1 h2 h3
  · injection h with h
    exact ⟨0, p.fn, by rw [← h], fun _ => by rw [h1]; ring⟩
  · injection h with h
    refine ⟨p.fp, _, by rw [← h], fun _ => ?_⟩
    field_simp
  · injection h with h
    refine ⟨_, p.fn, by rw [← h], fun h7 => absurd h7 h2⟩

theorem setMass_shape {p p' : DMParticle} {m : ℝ} (h : p.setMass U m = .ok p') :
    ∃ x y, p' = { p with mass := m, fp := x, fn := y } := by
  unfold setMass at h
  split_ifs at h with h1 h2
  · obtain ⟨x, y, rfl, _⟩ := setSigmaProton_shape h; exact ⟨x, y, rfl⟩
  · obtain ⟨x, y, rfl, _⟩ := setSigmaNeutron_shape h; exact ⟨x, y, rfl⟩
  · obtain ⟨q, hq, h⟩ := Outcome.bind_eq_ok.1 h
    obtain ⟨x, y, rfl, _⟩ := setSigmaProton_shape hq
    obtain ⟨x', y', rfl, _⟩ := setSigmaNeutron_shape h
    exact ⟨x', y', rfl⟩

theorem RelOK.setMass {p p' : DMParticle} {m : ℝ} (hr : RelOK p) (h : p.setMass U m = .ok p') : RelOK p' := by
  unfold DMParticle.setMass at h
  have h0 : RelOK { p with mass := m } := hr
  split_ifs at h with h1 h2
  · exact h0.setSigmaProton h
  · exact h0.setSigmaNeutron h
  · obtain ⟨q, hq, h⟩ := Outcome.bind_eq_ok.1 h
    exact (h0.setSigmaProton hq).setSigmaNeutron h

theorem BaseInv.step {p p' : DMParticle} {op : Op} (h : BaseInv p) (hv : ValidOp op)
    (hs : p.step U op = .ok p') : BaseInv p' := by
  cases op with
  | setMass m => obtain ⟨x, y, rfl⟩ := setMass_shape hs; exact ⟨h.pre, hv, h.norm, h.xs, h.eta⟩
  | setSpin s => cases hs; exact ⟨h.pre, h.mass, h.norm, h.xs, h.eta⟩
  | setLowMassMode s => cases hs; exact ⟨h.pre, h.mass, h.norm, h.xs, h.eta⟩
  | setFractionalDensity s => cases hs; exact ⟨h.pre, h.mass, h.norm, h.xs, h.eta⟩
  | setSigmaProton s => obtain ⟨x, y, rfl, _⟩ := setSigmaProton_shape hs; exact h.withCouplings x y
  | setSigmaNeutron s => obtain ⟨x, y, rfl, _⟩ := setSigmaNeutron_shape hs; exact h.withCouplings x y
  | setSigmaElectron s => cases hs; exact ⟨h.pre, h.mass, h.norm, h.xs, h.eta⟩
  | setInteractionParameter s t =>
    simp only [DMParticle.step, setInteractionParameter] at hs
    split_ifs at hs
    · obtain ⟨x, y, rfl, _⟩ := setSigmaProton_shape hs; exact h.withCouplings x y
    · obtain ⟨x, y, rfl, _⟩ := setSigmaNeutron_shape hs; exact h.withCouplings x y
    · cases hs; exact ⟨h.pre, h.mass, h.norm, h.xs, h.eta⟩
  | fixCouplingRatio a b =>
    obtain ⟨h0, x, y, rfl, _⟩ := fixCouplingRatio_shape hs
    refine ⟨h.pre, h.mass, .inl ?_, h.xs, h.eta⟩
    show a / (a + b) + b / (a + b) = 1
    field_simp
  | fixFnOverFp r =>
    obtain ⟨h0, x, y, rfl, _⟩ := fixFnOverFp_shape hs
    refine ⟨h.pre, h.mass, .inl ?_, h.xs, h.eta⟩
    show 1 / (1 + r) + r / (1 + r) = 1
    field_simp
  | fixFpOverFn r =>
    obtain ⟨x, y, rfl, _⟩ := fixFpOverFn_shape hs
    exact ⟨h.pre, h.mass, .inr rfl, h.xs, h.eta⟩
  | unfixCouplingRatios => cases hs; exact ⟨h.pre, h.mass, h.norm, h.xs, h.eta⟩
  | setFormFactorDM f m =>
    simp only [DMParticle.step, setFormFactorDM] at hs
    split at hs
    · cases hs
    · split at hs
      · cases hs
      · cases hs; exact ⟨h.pre, h.mass, h.norm, h.xs, h.eta⟩
  | setMediatorMass m =>
    simp only [DMParticle.step, setMediatorMass] at hs
    split at hs
    · cases hs
    · cases hs; exact ⟨h.pre, h.mass, h.norm, h.xs, h.eta⟩

theorem BaseInv.run {ops : List Op} {p p' : DMParticle} (h : BaseInv p) (hv : ∀ op ∈ ops, ValidOp op)
    (hs : p.run U ops = .ok p') : BaseInv p' := by
  induction ops generalizing p with
  | nil => cases hs; exact h
  | cons op ops ih =>
    obtain ⟨q, hq, hs⟩ := Outcome.bind_eq_ok.1 hs
    exact ih (h.step (hv op (by simp)) hq) (fun o ho => hv o (by simp [ho])) hs

theorem reachable_inv {p : DMParticle} (h : Reachable U p) : BaseInv p := by
  obtain ⟨p₀, ops, hb, hv, hr⟩ := h
  exact (built_inv hb).1.run hv hr

/-- The invariant of clean histories: couplings obey the stored ratio, which is the requested one. -/
structure CleanInv (p : DMParticle) (r : ℝ × ℝ) : Prop where
  base : BaseInv p
  rel : RelOK p
  ratio : p.fpRel * r.2 = p.fnRel * r.1
  nz : r.1 ≠ 0 ∨ r.2 ≠ 0

theorem CleanInv.mono {p p' : DMParticle} {r : ℝ × ℝ} (h : CleanInv p r) (hb : BaseInv p') (hr : RelOK p')
    (h1 : p'.fpRel = p.fpRel) (h2 : p'.fnRel = p.fnRel) : CleanInv p' r :=
  ⟨hb, hr, by rw [h1, h2]; exact h.ratio, h.nz⟩

theorem CleanInv.step {p p' : DMParticle} {op : Op} {r : ℝ × ℝ} (h : CleanInv p r) (hv : ValidOp op)
    (hc : (requestedBy op).isSome → p.sigmaProton U ≠ 0)
    (hs : p.step U op = .ok p') : CleanInv p' ((requestedBy op).getD r) := by
  have hb := h.base.step hv hs
  have hfp : (requestedBy op).isSome → p.fp ≠ 0 := fun h1 h2 =>
    hc h1 ((sigmaProton_eq_zero h.base.pre h.base.mass).2 h2)
  cases op with
  | setMass m =>
    have h2 := h.rel.setMass hs
    obtain ⟨x, y, rfl⟩ := setMass_shape hs
    exact h.mono hb h2 rfl rfl
  | setSpin s => cases hs; exact h.mono hb h.rel rfl rfl
  | setLowMassMode s => cases hs; exact h.mono hb h.rel rfl rfl
  | setFractionalDensity s => cases hs; exact h.mono hb h.rel rfl rfl
  | setSigmaProton s =>
    have h2 := h.rel.setSigmaProton hs
    obtain ⟨x, y, rfl, _⟩ := setSigmaProton_shape hs; exact h.mono hb h2 rfl rfl
  | setSigmaNeutron s =>
    have h2 := h.rel.setSigmaNeutron hs
    obtain ⟨x, y, rfl, _⟩ := setSigmaNeutron_shape hs; exact h.mono hb h2 rfl rfl
  | setSigmaElectron s => cases hs; exact h.mono hb h.rel rfl rfl
  | setInteractionParameter s t =>
    simp only [DMParticle.step, setInteractionParameter] at hs
    split_ifs at hs
    · have h2 := h.rel.setSigmaProton hs
      obtain ⟨x, y, rfl, _⟩ := setSigmaProton_shape hs; exact h.mono hb h2 rfl rfl
    · have h2 := h.rel.setSigmaNeutron hs
      obtain ⟨x, y, rfl, _⟩ := setSigmaNeutron_shape hs; exact h.mono hb h2 rfl rfl
    · cases hs; exact h.mono hb h.rel rfl rfl
  | fixCouplingRatio a b =>
    obtain ⟨h0, x, y, rfl, h3⟩ := fixCouplingRatio_shape hs
    have h3 := h3 (hfp rfl)
    refine ⟨hb, fun _ => ?_, ?_, ?_⟩
    · show x * (b / (a + b)) = y * (a / (a + b))
      field_simp; linarith
    · show a / (a + b) * b = b / (a + b) * a
      ring
    · show a ≠ 0 ∨ b ≠ 0
      by_contra hh; push Not at hh; exact h0 (by rw [hh.1, hh.2]; ring)
  | fixFnOverFp r =>
    obtain ⟨h0, x, y, rfl, h3⟩ := fixFnOverFp_shape hs
    have h3 := h3 (hfp rfl)
    refine ⟨hb, fun _ => ?_, ?_, .inl one_ne_zero⟩
    · show x * (r / (1 + r)) = y * (1 / (1 + r))
      field_simp; linarith
    · show 1 / (1 + r) * r = r / (1 + r) * 1
      ring
  | fixFpOverFn r =>
    obtain ⟨x, y, rfl, h3⟩ := fixFpOverFn_shape hs
    have h3 := h3 (hfp rfl)
    refine ⟨hb, fun _ => ?_, ?_, .inr one_ne_zero⟩
    · show x * 1 = y * r
      linarith
    · show r * 1 = 1 * r
      ring
  | unfixCouplingRatios => cases hs; exact h.mono hb (fun h => by simp [DMParticle.unfixCouplingRatios] at h) rfl rfl
  | setFormFactorDM f m =>
    simp only [DMParticle.step, setFormFactorDM] at hs
    split at hs
    · cases hs
    · split at hs
      · cases hs
      · cases hs; exact h.mono hb h.rel rfl rfl
  | setMediatorMass m =>
    simp only [DMParticle.step, setMediatorMass] at hs
    split at hs
    · cases hs
    · cases hs; exact h.mono hb h.rel rfl rfl

theorem CleanInv.run {ops : List Op} {p p' : DMParticle} {r : ℝ × ℝ} (h : CleanInv p r)
    (hv : ∀ op ∈ ops, ValidOp op) (hc : CleanFrom U p ops) (hs : p.run U ops = .ok p') :
    CleanInv p' (ops.foldl (fun r op => (requestedBy op).getD r) r) := by
  induction ops generalizing p r with
  | nil => cases hs; exact h
  | cons op ops ih =>
    obtain ⟨q, hq, hs⟩ := Outcome.bind_eq_ok.1 hs
    exact ih (h.step (hv op (by simp)) hc.1 hq) (fun o ho => hv o (by simp [ho])) (hc.2 q hq) hs

theorem cleanReachable_inv {p : DMParticle} {r : ℝ × ℝ} (h : CleanReachable U p r) : CleanInv p r := by
  obtain ⟨p₀, ops, hb, hv, hc, hr, rfl⟩ := h
  obtain ⟨h1, h2, h3⟩ := built_inv hb
  refine CleanInv.run ⟨h1, h2, ?_, .inl one_ne_zero⟩ hv hc hr
  simp [h3]

theorem cleanReachable_reachable {p : DMParticle} {r : ℝ × ℝ} (h : CleanReachable U p r) : Reachable U p := by
  obtain ⟨p₀, ops, hb, hv, hc, hr, rfl⟩ := h
  exact ⟨p₀, ops, hb, hv, hr⟩

/-- The couplings obey the requested ratio. -/
theorem CleanInv.requested {p : DMParticle} {r : ℝ × ℝ} (h : CleanInv p r) (hf : p.fixedRelation = true) :
    p.fp * r.2 = p.fn * r.1 := by
  have h1 := h.rel hf
  have h2 := h.ratio
  by_cases hn : p.fnRel = 0
  · have hp : p.fpRel ≠ 0 := by
      rcases h.base.norm with h3 | h3
      · rw [hn] at h3; intro h4; rw [h4] at h3; norm_num at h3
      · rw [hn] at h3; norm_num at h3
    rw [hn] at h1 h2
    have h5 : r.2 = 0 := by
      have : p.fpRel * r.2 = 0 := by linarith
      exact (mul_eq_zero.1 this).resolve_left hp
    have h6 : p.fn = 0 := by
      have : p.fn * p.fpRel = 0 := by linarith
      exact (mul_eq_zero.1 this).resolve_right hp
    rw [h5, h6]; ring
  · have : p.fnRel * (p.fp * r.2 - p.fn * r.1) = 0 := by linear_combination r.2 * h1 + p.fn * h2
    have := (mul_eq_zero.1 this).resolve_left hn
    linarith

/-- The stored ratio is the requested one (in all histories). -/
def RatioInv (p : DMParticle) (r : ℝ × ℝ) : Prop :=
  p.fpRel * r.2 = p.fnRel * r.1 ∧ (r.1 ≠ 0 ∨ r.2 ≠ 0)

theorem RatioInv.step {p p' : DMParticle} {op : Op} {r : ℝ × ℝ} (h : RatioInv p r)
    (hs : p.step U op = .ok p') : RatioInv p' ((requestedBy op).getD r) := by
  cases op with
  | setMass m => obtain ⟨x, y, rfl⟩ := setMass_shape hs; exact h
  | setSpin s => cases hs; exact h
  | setLowMassMode s => cases hs; exact h
  | setFractionalDensity s => cases hs; exact h
  | setSigmaProton s => obtain ⟨x, y, rfl, _⟩ := setSigmaProton_shape hs; exact h
  | setSigmaNeutron s => obtain ⟨x, y, rfl, _⟩ := setSigmaNeutron_shape hs; exact h
  | setSigmaElectron s => cases hs; exact h
  | setInteractionParameter s t =>
    simp only [DMParticle.step, setInteractionParameter] at hs
    split_ifs at hs
    · obtain ⟨x, y, rfl, _⟩ := setSigmaProton_shape hs; exact h
    · obtain ⟨x, y, rfl, _⟩ := setSigmaNeutron_shape hs; exact h
    · cases hs; exact h
  | fixCouplingRatio a b =>
    obtain ⟨h0, x, y, rfl, h3⟩ := fixCouplingRatio_shape hs
    refine ⟨?_, ?_⟩
    · show a / (a + b) * b = b / (a + b) * a
      ring
    · show a ≠ 0 ∨ b ≠ 0
      by_contra hh; push Not at hh; exact h0 (by rw [hh.1, hh.2]; ring)
  | fixFnOverFp r =>
    obtain ⟨h0, x, y, rfl, h3⟩ := fixFnOverFp_shape hs
    refine ⟨?_, .inl one_ne_zero⟩
    show 1 / (1 + r) * r = r / (1 + r) * 1
    ring
  | fixFpOverFn r =>
    obtain ⟨x, y, rfl, h3⟩ := fixFpOverFn_shape hs
    refine ⟨?_, .inr one_ne_zero⟩
    show r * 1 = 1 * r
    ring
  | unfixCouplingRatios => cases hs; exact h
  | setFormFactorDM f m =>
    simp only [DMParticle.step, setFormFactorDM] at hs
    split at hs
    · cases hs
    · split at hs
      · cases hs
      · cases hs; exact h
  | setMediatorMass m =>
    simp only [DMParticle.step, setMediatorMass] at hs
    split at hs
    · cases hs
    · cases hs; exact h

theorem RatioInv.run {ops : List Op} {p p' : DMParticle} {r : ℝ × ℝ} (h : RatioInv p r)
    (hs : p.run U ops = .ok p') :
    RatioInv p' (ops.foldl (fun r op => (requestedBy op).getD r) r) := by
  induction ops generalizing p r with
  | nil => cases hs; exact h
  | cons op ops ih =>
    obtain ⟨q, hq, hs⟩ := Outcome.bind_eq_ok.1 hs
    exact ih (h.step hq) hs

theorem reachableWith_inv {p : DMParticle} {r : ℝ × ℝ} (h : ReachableWith U p r) :
    BaseInv p ∧ RatioInv p r := by
  obtain ⟨p₀, ops, hb, hv, hr, rfl⟩ := h
  obtain ⟨h1, h2, h3⟩ := built_inv hb
  refine ⟨h1.run hv hr, RatioInv.run ?_ hr⟩
  exact ⟨by simp [h3], .inl one_ne_zero⟩

theorem RatioInv.fpRel_eq_zero {p : DMParticle} {r : ℝ × ℝ} (hb : BaseInv p) (h : RatioInv p r) :
    p.fpRel = 0 ↔ r.1 = 0 := by
  obtain ⟨h1, h2⟩ := h
  constructor
  · intro h0
    have hn : p.fnRel ≠ 0 := hb.fn_ne (by rw [h0]; exact lt_irrefl 0)
    rw [h0] at h1
    have : p.fnRel * r.1 = 0 := by linarith
    exact (mul_eq_zero.1 this).resolve_left hn
  · intro h0
    rw [h0] at h1 h2
    have : p.fpRel * r.2 = 0 := by linarith
    exact (mul_eq_zero.1 this).resolve_right (h2.resolve_left (fun h => h rfl))

theorem RatioInv.fnRel_eq_zero {p : DMParticle} {r : ℝ × ℝ} (hb : BaseInv p) (h : RatioInv p r) :
    p.fnRel = 0 ↔ r.2 = 0 := by
  obtain ⟨h1, h2⟩ := h
  constructor
  · intro h0
    have hp : p.fpRel ≠ 0 := by
      rcases hb.norm with h3 | h3
      · rw [h0] at h3; intro h4; rw [h4] at h3; norm_num at h3
      · rw [h0] at h3; norm_num at h3
    rw [h0] at h1
    have : p.fpRel * r.2 = 0 := by linarith
    exact (mul_eq_zero.1 this).resolve_left hp
  · intro h0
    rw [h0] at h1 h2
    have : p.fnRel * r.1 = 0 := by linarith
    exact (mul_eq_zero.1 this).resolve_right (h2.resolve_right (fun h => h rfl))

/-- Particles that differ at most by a common sign of both couplings cannot be told apart. -/
theorem sameObservables_of_sign {p : DMParticle} {e : ℝ} (he : e * e = 1) :
    SameObservables U p { p with fp := e * p.fp, fn := e * p.fn } := by
  have h1 : ({ p with fp := e * p.fp, fn := e * p.fn } : DMParticle).sigmaProton U = p.sigmaProton U := by
    simp only [sigmaProton]
    linear_combination (p.prefactor * p.fp * p.fp * reducedMass p.mass U.mProton *
      reducedMass p.mass U.mProton / Real.pi) * he
  have h2 : ({ p with fp := e * p.fp, fn := e * p.fn } : DMParticle).sigmaNeutron U = p.sigmaNeutron U := by
    simp only [sigmaNeutron]
    linear_combination (p.prefactor * p.fn * p.fn * reducedMass p.mass U.mProton *
      reducedMass p.mass U.mProton / Real.pi) * he
  have hsq : ∀ x y : ℝ, (e * p.fp * x + e * p.fn * y) ^ 2 = (p.fp * x + p.fn * y) ^ 2 := by
    intro x y; linear_combination ((p.fp * x + p.fn * y) ^ 2) * he
  have h3 : ∀ q iso v, ({ p with fp := e * p.fp, fn := e * p.fn } : DMParticle).dSigmadq2Nucleus U q iso v
      = p.dSigmadq2Nucleus U q iso v := by
    intro q iso v
    unfold dSigmadq2Nucleus
    cases p.interaction <;> simp only [hsq]
  refine ⟨rfl, rfl, rfl, rfl, rfl, rfl, h1, h2, rfl, ?_, h3, fun _ _ => rfl, ?_, fun _ => rfl⟩
  · intro t
    simp only [getInteractionParameter, h1, h2]
    rfl
  · intro I iso v
    simp only [sigmaTotalNucleus, sigmaTotalNucleusBase, h3, hsq]


/-- Spin-independent particles have prefactor 1 and reference momentum `aEM mElectron`, spin-dependent ones prefactor 3. -/
def KindInv (U : Units) (p : DMParticle) : Prop :=
  (p.interaction = .SD ∧ p.prefactor = 3) ∨
    ∃ ff m, p.interaction = .SI ff (U.aEM * U.mElectron) m ∧ p.prefactor = 1

theorem KindInv.step {p p' : DMParticle} {op : Op} (h : KindInv U p) (hs : p.step U op = .ok p') : KindInv U p' := by
  cases op with
  | setMass m => obtain ⟨x, y, rfl⟩ := setMass_shape hs; exact h
  | setSpin s => cases hs; exact h
  | setLowMassMode s => cases hs; exact h
  | setFractionalDensity s => cases hs; exact h
  | setSigmaProton s => obtain ⟨x, y, rfl, _⟩ := setSigmaProton_shape hs; exact h
  | setSigmaNeutron s => obtain ⟨x, y, rfl, _⟩ := setSigmaNeutron_shape hs; exact h
  | setSigmaElectron s => cases hs; exact h
  | setInteractionParameter s t =>
    simp only [DMParticle.step, setInteractionParameter] at hs
    split_ifs at hs
    · obtain ⟨x, y, rfl, _⟩ := setSigmaProton_shape hs; exact h
    · obtain ⟨x, y, rfl, _⟩ := setSigmaNeutron_shape hs; exact h
    · cases hs; exact h
  | fixCouplingRatio a b => obtain ⟨h0, x, y, rfl, _⟩ := fixCouplingRatio_shape hs; exact h
  | fixFnOverFp r => obtain ⟨h0, x, y, rfl, _⟩ := fixFnOverFp_shape hs; exact h
  | fixFpOverFn r => obtain ⟨x, y, rfl, _⟩ := fixFpOverFn_shape hs; exact h
  | unfixCouplingRatios => cases hs; exact h
  | setFormFactorDM f m =>
    rcases h with ⟨h1, _⟩ | ⟨ff, m', h1, h2⟩
    · simp [DMParticle.step, setFormFactorDM, h1] at hs
    · simp only [DMParticle.step, setFormFactorDM, h1] at hs
      split at hs
      · cases hs
      · cases hs; exact .inr ⟨_, _, rfl, h2⟩
  | setMediatorMass m =>
    rcases h with ⟨h1, _⟩ | ⟨ff, m', h1, h2⟩
    · simp [DMParticle.step, setMediatorMass, h1] at hs
    · simp only [DMParticle.step, setMediatorMass, h1] at hs
      cases hs; exact .inr ⟨_, _, rfl, h2⟩

theorem reachable_kind {p : DMParticle} (h : Reachable U p) : KindInv U p := by
  obtain ⟨p₀, ops, hb, hv, hr⟩ := h
  have h0 : KindInv U p₀ := by
    rcases hb with ⟨m, s, hm, h⟩ | ⟨m, s, hm, h⟩
    · obtain ⟨x, y, rfl, h2⟩ := setSigmaProton_shape h; exact .inr ⟨_, _, rfl, rfl⟩
    · obtain ⟨x, y, rfl, h2⟩ := setSigmaProton_shape h; exact .inl ⟨rfl, rfl⟩
  clear hb hv
  induction ops generalizing p₀ with
  | nil => cases hr; exact h0
  | cons op ops ih =>
    obtain ⟨q, hq, hs⟩ := Outcome.bind_eq_ok.1 hr
    exact ih _ hs (h0.step hq)

/-- The particle built by `DM_Particle_SI(m, s)`, explicitly. -/
theorem makeSI_eq {m s : ℝ} (hm : 0 < m) (hs : 0 ≤ s) :
    ∃ c : ℝ, 0 ≤ c ∧ (0 < s → 0 < c) ∧
      makeSI U m s = .ok { standard U m 1 (.SI .contact (U.aEM * U.mElectron) 0) with fp := c, fn := c } ∧
      c * c * reducedMass m U.mProton * reducedMass m U.mProton / Real.pi = s := by
  have h1 : (0 : ℝ) < (standard U m 1 (.SI .contact (U.aEM * U.mElectron) 0)).prefactor := by simp [standard]
  have h2 : 0 < (standard U m 1 (.SI .contact (U.aEM * U.mElectron) 0)).mass := hm
  have h3 : (standard U m 1 (.SI .contact (U.aEM * U.mElectron) 0)).fpRel ≠ 0 := by simp [standard]
  have h4 := cpl_sq (U := U) h1 h2 hs
  refine ⟨cpl U (standard U m 1 (.SI .contact (U.aEM * U.mElectron) 0)) s, cpl_nonneg h2, ?_, ?_, ?_⟩
  · intro hs'
    have hmu := reducedMass_pos hm U.mProton_pos
    have := Real.pi_pos
    simp only [cpl, standard]
    positivity
  · unfold makeSI
    rw [setSigmaProton_fixed h1 h2 hs rfl h3]
    simp [standard]
  · simpa [standard] using h4

theorem makeSI_built {m s : ℝ} {p : DMParticle} (hm : 0 < m) (h : makeSI U m s = .ok p) : Built U p :=
  .inl ⟨m, s, hm, h⟩

/-- Non-vacuity for C01: a particle after a non-trivial history is reachable with ratio 1 : 3. -/
theorem reachable_example {m s : ℝ} (hm : 0 < m) (hs : 0 < s) :
    ∃ p, CleanReachable U p (1, 3) ∧ p.fixedRelation = true ∧ p.sigmaProton U ≠ 0 := by
  obtain ⟨c, hc0, hc, h, hcs⟩ := makeSI_eq (U := U) hm hs.le
  have hc := hc hs
  have hfp : ({ standard U m 1 (.SI .contact (U.aEM * U.mElectron) 0) with fp := c, fn := c } :
      DMParticle).sigmaProton U = s := by simpa [sigmaProton, standard] using hcs
  refine ⟨{ standard U m 1 (.SI .contact (U.aEM * U.mElectron) 0) with
              fixedRelation := true, fpRel := 1 / (1 + 3), fnRel := 3 / (1 + 3), fp := c,
              fn := 3 / (1 + 3) / (1 / (1 + 3)) * c },
    ⟨_, [.fixCouplingRatio 1 3], makeSI_built hm h, by simp [ValidOp], ?_, ?_, rfl⟩, ?_, ?_⟩
  · exact ⟨fun _ => by rw [hfp]; exact hs.ne', fun _ _ => trivial⟩
  · have h4 : (1 : ℝ) + 3 ≠ 0 := by norm_num
    have h5 : (1 : ℝ) / (1 + 3) ≠ 0 := by norm_num
    simp only [run, step, fixCouplingRatio, fdiv_ok h4, Outcome.bind_ok, one_ne_zero, if_false,
      OfNat.ofNat_ne_zero, hc.ne', ne_eq, not_false_eq_true, if_true, fdiv_ok h5]
  · rfl
  · have : (c * c * reducedMass m U.mProton * reducedMass m U.mProton / Real.pi) ≠ 0 := by rw [hcs]; exact hs.ne'
    simpa [sigmaProton, standard] using this

end Obscura
