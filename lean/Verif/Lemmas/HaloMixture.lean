import Verif.Spec.HaloMixture
import Verif.Lemmas.HaloComparison

/-!
# Lemmas for C118: rates in a mixture of two halos
-/

namespace Obscura

open Spec NuclearDetector DMParticle MeasureTheory

variable {U : Units} {I : Integrator} {T : Tools} {p : DMParticle} {h h₁ h₂ : Distribution} {a b : ℝ} {iso : Isotope} {c : Crystal} {E : ℝ}

/-- Three computations succeed, and the first result is `a` times the second one and `b` times the third one. -/
def OkMix (a b : ℝ) (o o₁ o₂ : Outcome ℝ) : Prop := ∃ r r₁ r₂, o = .ok r ∧ o₁ = .ok r₁ ∧ o₂ = .ok r₂ ∧ r = a * r₁ + b * r₂

/-- The same, if all three succeed. -/
def Mix (a b : ℝ) (o o₁ o₂ : Outcome ℝ) : Prop := ∀ r r₁ r₂, o = .ok r → o₁ = .ok r₁ → o₂ = .ok r₂ → r = a * r₁ + b * r₂

theorem OkMix.mix {o o₁ o₂ : Outcome ℝ} (h : OkMix a b o o₁ o₂) : Mix a b o o₁ o₂ := by
  obtain ⟨r, r₁, r₂, rfl, rfl, rfl, e⟩ := h
  intro s s₁ s₂ k k₁ k₂
  cases k; cases k₁; cases k₂
  exact e

theorem OkMix.zero (a b : ℝ) : OkMix a b (.ok 0) (.ok 0) (.ok 0) := ⟨0, 0, 0, rfl, rfl, rfl, by simp⟩

theorem OkMix.times {o o₁ o₂ : Outcome ℝ} (s : ℝ) (h : OkMix a b o o₁ o₂) :
    OkMix a b (o >>= fun r => .ok (s * r)) (o₁ >>= fun r => .ok (s * r)) (o₂ >>= fun r => .ok (s * r)) := by
  obtain ⟨r, r₁, r₂, rfl, rfl, rfl, e⟩ := h
  exact ⟨_, _, _, rfl, rfl, rfl, by rw [e]; ring⟩

theorem sum_mix {α : Type} (l : List α) (f f₁ f₂ : α → ℝ) (hf : ∀ y ∈ l, f y = a * f₁ y + b * f₂ y) :
    (l.map f).sum = a * (l.map f₁).sum + b * (l.map f₂).sum := by
  induction l with
  | nil => simp
  | cons y l ih =>
    simp only [List.map_cons, List.sum_cons]
    rw [hf y (by simp), ih fun z hz => hf z (by simp [hz])]
    ring

theorem OkMix.sumOver {α : Type} {f f₁ f₂ : α → Outcome ℝ} {l : List α} (hf : ∀ y ∈ l, OkMix a b (f y) (f₁ y) (f₂ y)) :
    OkMix a b (sumOver f l) (sumOver f₁ l) (sumOver f₂ l) := by
  have : ∀ y, y ∈ l → f y = .ok (f y).valueOr0 ∧ f₁ y = .ok (f₁ y).valueOr0 ∧ f₂ y = .ok (f₂ y).valueOr0 ∧
      (f y).valueOr0 = a * (f₁ y).valueOr0 + b * (f₂ y).valueOr0 := fun y hy => by
    obtain ⟨r, r₁, r₂, e, e₁, e₂, h⟩ := hf y hy
    rw [e, e₁, e₂]
    exact ⟨rfl, rfl, rfl, h⟩
  exact ⟨_, _, _, sumOver_ok fun y hy => (this y hy).1, sumOver_ok fun y hy => (this y hy).2.1, sumOver_ok fun y hy => (this y hy).2.2.1,
    sum_mix l _ _ _ fun y hy => (this y hy).2.2.2⟩

theorem Mix.times {o o₁ o₂ : Outcome ℝ} (s : ℝ) (h : Mix a b o o₁ o₂) :
    Mix a b (o >>= fun r => .ok (s * r)) (o₁ >>= fun r => .ok (s * r)) (o₂ >>= fun r => .ok (s * r)) := by
  intro x y z hx hy hz
  obtain ⟨r, e, hx⟩ := Outcome.bind_eq_ok.1 hx
  obtain ⟨r₁, e₁, hy⟩ := Outcome.bind_eq_ok.1 hy
  obtain ⟨r₂, e₂, hz⟩ := Outcome.bind_eq_ok.1 hz
  cases hx; cases hy; cases hz
  rw [h _ _ _ e e₁ e₂]
  ring

theorem Mix.after {α : Type} {c : Outcome α} {f f₁ f₂ : α → Outcome ℝ} (hf : ∀ v, c = .ok v → Mix a b (f v) (f₁ v) (f₂ v)) :
    Mix a b (c >>= f) (c >>= f₁) (c >>= f₂) := by
  intro x y z hx hy hz
  obtain ⟨v, e, hx⟩ := Outcome.bind_eq_ok.1 hx
  rw [e, Outcome.bind_ok] at hy hz
  exact hf v e x y z hx hy hz

theorem collect_mix {α : Type} {f f₁ f₂ : α → Outcome ℝ} {l : List α} {xs ys zs : List ℝ} (hf : ∀ y ∈ l, Mix a b (f y) (f₁ y) (f₂ y))
    (e : collect f l = .ok xs) (e₁ : collect f₁ l = .ok ys) (e₂ : collect f₂ l = .ok zs) :
    (∀ i, xs.getD i 0 = a * ys.getD i 0 + b * zs.getD i 0) ∧ xs.sum = a * ys.sum + b * zs.sum := by
  induction l generalizing xs ys zs with
  | nil => cases e; cases e₁; cases e₂; simp
  | cons y l ih =>
    rw [collect] at e e₁ e₂
    obtain ⟨x, fx, e⟩ := Outcome.bind_eq_ok.1 e
    obtain ⟨xs', ex, e⟩ := Outcome.bind_eq_ok.1 e
    obtain ⟨x₁, fy, e₁⟩ := Outcome.bind_eq_ok.1 e₁
    obtain ⟨ys', ey, e₁⟩ := Outcome.bind_eq_ok.1 e₁
    obtain ⟨x₂, fz, e₂⟩ := Outcome.bind_eq_ok.1 e₂
    obtain ⟨zs', ez, e₂⟩ := Outcome.bind_eq_ok.1 e₂
    cases e; cases e₁; cases e₂
    have k1 := hf y (by simp) x x₁ x₂ fx fy fz
    obtain ⟨k2, k3⟩ := ih (fun z hz => hf z (by simp [hz])) ex ey ez
    refine ⟨fun i => ?_, ?_⟩
    · cases i with
      | zero => simpa using k1
      | succ i => simpa using k2 i
    · rw [List.sum_cons, List.sum_cons, List.sum_cons, k1, k3]
      ring

theorem Mix.sumOver {α : Type} {f f₁ f₂ : α → Outcome ℝ} {l : List α} (hf : ∀ y ∈ l, Mix a b (f y) (f₁ y) (f₂ y)) :
    Mix a b (sumOver f l) (sumOver f₁ l) (sumOver f₂ l) := by
  intro x y z hx hy hz
  obtain ⟨xs, e, hx'⟩ := Outcome.bind_eq_ok.1 hx
  obtain ⟨ys, e₁, hy'⟩ := Outcome.bind_eq_ok.1 hy
  obtain ⟨zs, e₂, hz'⟩ := Outcome.bind_eq_ok.1 hz
  cases hx'; cases hy'; cases hz'
  rw [foldl_add_eq_sum, foldl_add_eq_sum, foldl_add_eq_sum]
  exact (collect_mix hf e e₁ e₂).2

/-- One term of a rate, for cross sections that fall with the square of the speed. -/
theorem HaloMixture.term (A : HaloMixture a b h h₁ h₂) (hI : I.Exact) (p₁ : ProperSpeeds h₁) (p₂ : ProperSpeeds h₂) {w C m s : ℝ} {u : Bool} (hw : 0 < w)
    (hm : 0 < m) {σ : ℝ → ℝ} (hσ : ∀ v, σ v = s / v ^ 2) {R : Distribution → Outcome ℝ}
    (R0 : ∀ g ∈ [h, h₁, h₂], g.vMax < w → R g = .ok 0)
    (R1 : ∀ g ∈ [h, h₁, h₂], w ≤ g.vMax → (u ∧ g.useEta) → R g = (g.eta w >>= fun e => .ok (C * (s * (g.density / m * e)))))
    (R2 : ∀ g ∈ [h, h₁, h₂], w ≤ g.vMax → ¬ (u ∧ g.useEta) → R g = .ok (C * I (fun v => g.differentialFlux v m * σ v) w g.vMax)) :
    OkMix a b (R h) (R h₁) (R h₂) := by
  have m0 : h ∈ [h, h₁, h₂] := by simp
  have m1 : h₁ ∈ [h, h₁, h₂] := by simp
  have m2 : h₂ ∈ [h, h₁, h₂] := by simp
  have f1 := A.fastest₁
  have f2 := A.fastest₂
  rcases lt_or_ge h.vMax w with g | g
  · rw [R0 h m0 g, R0 h₁ m1 (f1 ▸ g), R0 h₂ m2 (f2 ▸ g)]
    exact .zero _ _
  by_cases hu : u ∧ h.useEta
  · obtain ⟨x, x₁, x₂, e, e₁, e₂, hx⟩ := A.inverse w hw.le g
    rw [R1 h m0 g hu, R1 h₁ m1 (f1.symm ▸ g) (by rw [A.method₁]; exact hu), R1 h₂ m2 (f2.symm ▸ g) (by rw [A.method₂]; exact hu), e, e₁, e₂]
    refine ⟨_, _, _, rfl, rfl, rfl, ?_⟩
    calc C * (s * (h.density / m * x)) = C * s / m * (h.density * x) := by ring
      _ = _ := by rw [hx]; ring
  · rw [R2 h m0 g hu, R2 h₁ m1 (f1.symm ▸ g) (by rw [A.method₁]; exact hu), R2 h₂ m2 (f2.symm ▸ g) (by rw [A.method₂]; exact hu), hI, hI, hI, f1, f2]
    refine ⟨_, _, _, rfl, rfl, rfl, ?_⟩
    have key : ∀ k : Distribution, ∫ v in w..h.vMax, k.differentialFlux v m * σ v = ∫ v in w..h.vMax, s / m * (k.density * k.pdfSpeed v / v) := fun k => by
      refine intervalIntegral.integral_congr fun v hv => ?_
      rw [Set.uIcc_of_le g] at hv
      have : 0 < v := hw.trans_le hv.1
      simp only [Distribution.differentialFlux, hσ]
      field_simp
    have hint : ∀ k : Distribution, ProperSpeeds k → k.vMax = h.vMax → IntervalIntegrable (fun v => s / m * (k.density * k.pdfSpeed v / v)) volume w h.vMax :=
      fun k hk e => by
        have i := hk.2
        rw [e] at i
        refine IntervalIntegrable.const_mul ?_ _
        refine ((i.mono_set ?_).const_mul k.density).mul_continuousOn (g := fun v => v⁻¹) ?_
        · rw [Set.uIcc_of_le g, Set.uIcc_of_le (hw.le.trans g)]
          exact Set.Icc_subset_Icc hw.le le_rfl
        · rw [Set.uIcc_of_le g]
          exact continuousOn_inv₀.mono fun v hv => (hw.trans_le hv.1).ne'
    rw [key, key, key, mul_left_comm a, mul_left_comm b, ← mul_add, ← intervalIntegral.integral_const_mul a, ← intervalIntegral.integral_const_mul b,
      ← intervalIntegral.integral_add ((hint h₁ p₁ f1).const_mul _) ((hint h₂ p₂ f2).const_mul _)]
    congr 1
    refine intervalIntegral.integral_congr fun v hv => ?_
    rw [Set.uIcc_of_le g] at hv
    rw [A.speeds v (hw.le.trans hv.1) hv.2]
    ring

theorem dRdERIsotope_mix (A : HaloMixture a b h h₁ h₂) (hI : I.Exact) (p₁ : ProperSpeeds h₁) (p₂ : ProperSpeeds h₂) (hi : PhysicalIsotope iso) (hm : 0 < p.mass)
    (hE : 0 < E) : OkMix a b (dRdERIsotope U I E p h iso) (dRdERIsotope U I E p h₁ iso) (dRdERIsotope U I E p h₂ iso) := by
  have hM := hi.1
  obtain ⟨s, -, c1⟩ := crossSection_speed (U := U) hM.le hi.2.1 p E
  refine HaloMixture.term A hI p₁ p₂ (w := vMinimalNucleus E p.mass iso.mass) (C := p.fractionalDensity / iso.mass) (u := p.useEtaFunction)
    (R := fun g => dRdERIsotope U I E p g iso) (vMinimalNucleus_pos hE hm hM) hm c1 (fun g _ hg => ?_) (fun g _ hg u => ?_) (fun g _ hg u => ?_) <;>
    unfold dRdERIsotope <;> dsimp only
  · rw [if_pos hg]
  · rw [if_neg (not_lt.2 hg), if_pos u]
    congr 1
    funext e
    rw [c1]
    congr 1
    ring
  · rw [if_neg (not_lt.2 hg), if_neg u]

theorem dRdEeCrystal_mix (A : HaloMixture a b h h₁ h₂) (hI : I.Exact) (p₁ : ProperSpeeds h₁) (p₂ : ProperSpeeds h₂) (hc : BuiltCrystal U c)
    (hcf : ∀ q, 0 ≤ c.formFactor q E) (hr : 0 ≤ p.sigmaElectronRef) (hm : 0 < p.mass) (hE : 0 < E) :
    OkMix a b (dRdEeCrystal U I E p h c) (dRdEeCrystal U I E p h₁ c) (dRdEeCrystal U I E p h₂ c) := by
  have hdq := (CrystalFacts.of_built hc).dq_pos
  unfold dRdEeCrystal
  split_ifs with hmax
  · exact .zero _ _
  refine OkMix.times _ (OkMix.sumOver fun i _ => ?_)
  have hq : 0 < ((i : ℝ) + 1) * c.dq := by positivity
  obtain ⟨s, -, hx⟩ := d2SigmaCrystal_eq (U := U) (E := E) (c := c) hr hq (hcf _)
  have c1 := hx p rfl rfl
  have hv0 : 0 < vMinimalElectrons (((i : ℝ) + 1) * c.dq) E p.mass := by unfold vMinimalElectrons; positivity
  refine HaloMixture.term A hI p₁ p₂ (C := 2 * (((i : ℝ) + 1) * c.dq) * c.dq) (u := p.useEtaFunction)
    (R := fun g => dRdEeCrystalTerm U I E p g c i) hv0 hm (s := s / reducedMass p.mass U.mElectron ^ 2) c1
    (fun g _ hg => ?_) (fun g _ hg u => ?_) (fun g _ hg u => ?_) <;>
    unfold dRdEeCrystalTerm <;> dsimp only
  · rw [if_pos hg]
  · rw [if_neg (not_lt.2 hg), if_pos u]
    congr 1
    funext e
    rw [c1]
    congr 1
    ring
  · rw [if_neg (not_lt.2 hg), if_neg u]

theorem dRdEeER_mix (A : HaloMixture a b h h₁ h₂) (hv0 : 0 < h.vMax) (hI : I.Exact) (p₁ : ProperSpeeds h₁) (p₂ : ProperSpeeds h₂) {e : AtomicElectron} {M : ℝ}
    (hB : 0 < e.binding) (hm : 0 < p.mass) (hE : 0 < E) : OkMix a b (dRdEeER U I E p h M e) (dRdEeER U I E p h₁ M e) (dRdEeER U I E p h₂ M e) := by
  have f1 := A.fastest₁
  have f2 := A.fastest₂
  have hs : ∀ q v, p.d2SigmaIonization U q E v e = (1 / 1000) * (1 / 1000) * p.d2SigmaIonization U q E (1 / 1000) e / v ^ 2 := fun q v => by
    unfold DMParticle.d2SigmaIonization DMParticle.dSigmadq2Electron
    cases p.interaction <;> simp only [div_eq_mul_inv, mul_inv, sq, one_mul] <;> norm_num <;> ring
  by_cases ho : energeticallyClosed p.mass h.vMax e.binding
  · unfold dRdEeER
    dsimp only
    rw [f1, f2, if_pos ho, if_pos ho, if_pos ho]
    exact .zero _ _
  have hset : {q | CanTransfer p.mass h.vMax q e.binding} = Set.Icc (qMinER p.mass h.vMax e.binding) (qMaxER p.mass h.vMax e.binding) := by
    ext q; exact reachable_momenta hm hv0 hB ho q
  have hmm : qMinER p.mass h.vMax e.binding ≤ qMaxER p.mass h.vMax e.binding := by
    unfold qMinER qMaxER
    have := Real.sqrt_nonneg (p.mass * p.mass * h.vMax * h.vMax - 2 * p.mass * e.binding)
    linarith
  obtain ⟨_, _, _, hlo0, _⟩ := qMinER_eq hm hv0 hB (by rw [hset]; exact isLeast_Icc hmm) (by rw [hset]; exact isGreatest_Icc hmm)
  unfold dRdEeER
  dsimp only
  rw [f1, f2, if_neg ho, if_neg ho, if_neg ho]
  by_cases htab : e.qMax < qMinER p.mass h.vMax e.binding
  · rw [if_pos htab, if_pos htab, if_pos htab]
    exact .zero _ _
  rw [if_neg htab, if_neg htab, if_neg htab, if_neg (not_le.2 hlo0), if_neg (not_le.2 hlo0), if_neg (not_le.2 hlo0)]
  generalize htop : (if e.qMax < qMaxER p.mass h.vMax e.binding then e.qMax else qMaxER p.mass h.vMax e.binding) = top
  have hle1 : qMinER p.mass h.vMax e.binding ≤ top := by
    rw [← htop]; split_ifs
    · exact not_lt.1 htab
    · exact hmm
  have htop0 := hlo0.trans_le hle1
  rw [logSpace_get (by norm_num), logSpace_get (by norm_num)]
  simp only [Outcome.bind_ok]
  rw [log_step hlo0 htop0]
  generalize Real.log (top / qMinER p.mass h.vMax e.binding) / (((100 : ℕ) : ℝ) - 1) = dl
  refine OkMix.times _ (OkMix.sumOver fun q hq => ?_)
  have hq0 : 0 < q := logSpace_pos hlo0 htop0 hq
  have hw : 0 < vMinimalElectrons q (e.binding + E) p.mass := by unfold vMinimalElectrons; positivity
  by_cases hlt : vMinimalElectrons q (e.binding + E) p.mass < h.vMax
  · have hg : ∀ g ∈ [h, h₁, h₂], vMinimalElectrons q (e.binding + E) p.mass < g.vMax := by
      intro g hg
      rcases List.mem_cons.1 hg with rfl | hg
      · exact hlt
      rcases List.mem_cons.1 hg with rfl | hg
      · rw [f1]; exact hlt
      · rw [List.mem_singleton.1 hg, f2]; exact hlt
    refine HaloMixture.term A hI p₁ p₂ (C := 2 * dl * q * q) (u := p.useEtaFunction) (R := fun g => dRdEeERTerm U I E dl p g e q) hw hm
      (s := (1 / 1000) * (1 / 1000) * p.d2SigmaIonization U q E (1 / 1000) e) (hs q)
      (fun g hm hc => absurd hc (not_lt.2 (hg g hm).le)) (fun g hm _ u => ?_) (fun g hm _ u => ?_) <;>
      unfold dRdEeERTerm <;> dsimp only
    · rw [if_pos (hg g hm), if_pos u]
      congr 1
      funext x
      congr 1
      ring
    · rw [if_pos (hg g hm), if_neg u]
  · unfold dRdEeERTerm
    dsimp only
    rw [f1, f2, if_neg hlt, if_neg hlt, if_neg hlt]
    exact .zero _ _

theorem migdal_mix (A : HaloMixture a b h h₁ h₂) (hI : I.Exact) (g₁ : FallingEta h₁) (g₂ : FallingEta h₂) (hu : h.useEta = true) (hv : 0 < h.vMax)
    {e : AtomicElectron} (hp : p.useEtaFunction = true) (hm : 0 < p.mass) (hi : PhysicalIsotope iso) (hB : 0 < e.binding) (hE : 0 < E)
    (hσ : LocallyIntegrableOn (fun ER => migdalCrossSection U p iso e ER E (1 / 1000)) (Set.Ioi 0)) :
    dRdEeMigdalIsotope U I E p h iso e = a * dRdEeMigdalIsotope U I E p h₁ iso e + b * dRdEeMigdalIsotope U I E p h₂ iso e := by
  have f1 := A.fastest₁
  have f2 := A.fastest₂
  have hM := hi.1
  have u1 : h₁.useEta = true := by rw [A.method₁]; exact hu
  have u2 : h₂.useEta = true := by rw [A.method₂]; exact hu
  have v1 : 0 < h₁.vMax := by rw [f1]; exact hv
  have v2 : 0 < h₂.vMax := by rw [f2]; exact hv
  have hσ2 : ∀ a b, 0 < a → IntegrableOn (fun ER => p.d2SigmaMigdal U ER E (1 / 1000) iso e) (Set.Icc a b) := fun a b ha => by
    have := hσ.integrableOn_compact_subset (t := Set.Icc a b) (fun y hy => ha.trans_le hy.1) isCompact_Icc
    simpa only [migdal_eq] using this
  obtain ⟨hlo, hhi⟩ := migdal_range_pos (h := h) (e := e) (p := p) hM hv hB hm
  have ii : ∀ f : ℝ → ℝ, (∀ a b, 0 < a → IntegrableOn f (Set.Icc a b)) → ∀ x y, 0 < x → 0 < y → IntervalIntegrable f volume x y := fun f hf x y hx hy => by
    rcases le_total x y with hxy | hxy
    · rw [intervalIntegrable_iff_integrableOn_Icc_of_le hxy]
      exact hf x y hx
    · refine IntervalIntegrable.symm ?_
      rw [intervalIntegrable_iff_integrableOn_Icc_of_le hxy]
      exact hf y x hy
  unfold dRdEeMigdalIsotope
  rw [hI, hI, hI, f1, f2, mul_left_comm a, mul_left_comm b, ← mul_add, ← intervalIntegral.integral_const_mul a, ← intervalIntegral.integral_const_mul b,
    ← intervalIntegral.integral_add
      ((ii _ (fun x y hx => migdalIntegrand_integrable hp u1 hm hM v1 hB hE (etaRegular_of_falling g₁) hx (hσ2 x y hx)) _ _ hlo hhi).const_mul _)
      ((ii _ (fun x y hx => migdalIntegrand_integrable hp u2 hm hM v2 hB hE (etaRegular_of_falling g₂) hx (hσ2 x y hx)) _ _ hlo hhi).const_mul _)]
  congr 1
  refine intervalIntegral.integral_congr fun ER hER => ?_
  have hER : 0 < ER := lt_of_lt_of_le (lt_min hlo hhi) hER.1
  rw [migdalIntegrand_value hp hu hER, migdalIntegrand_value hp u1 hER, migdalIntegrand_value hp u2 hER, f1, f2]
  split_ifs with g
  · simp
  · obtain ⟨x, x₁, x₂, e0, e₁, e₂, hx⟩ := A.inverse _ (vMinimalMigdal_pos hm hM hER (by linarith : 0 < e.binding + E)).le (not_le.1 g).le
    rw [e0, e₁, e₂]
    simp only [Outcome.valueOr0]
    calc _ = p.d2SigmaMigdal U ER E (1 / 1000) iso e * (1 / 1000) * (1 / 1000) / p.mass * (h.density * x) := by ring
      _ = _ := by rw [hx]; ring

variable {x : IonizationDetector} {d : Detector} {S S₁ S₂ : ShellRate}

/-- The rates of all shells of a detector, at all tabulated energies. -/
def MixShells (U : Units) (x : IonizationDetector) (a b : ℝ) (f f₁ f₂ : ℝ → Nucleus → AtomicElectron → Outcome ℝ) : Prop :=
  ∀ at' ∈ x.atoms, ∀ e ∈ at'.electrons, ∀ q ∈ e.kGrid, Mix a b (f (q * q / 2 / U.mElectron) at'.nucleus e) (f₁ (q * q / 2 / U.mElectron) at'.nucleus e)
    (f₂ (q * q / 2 / U.mElectron) at'.nucleus e)

theorem rNe_mix (hS : MixShells U x a b (fun E n e => S d E p n e) (fun E n e => S₁ d E p n e) fun E n e => S₂ d E p n e) (ne : ℕ) :
    Mix a b (x.rNe U S d ne p) (x.rNe U S₁ d ne p) (x.rNe U S₂ d ne p) := by
  unfold IonizationDetector.rNe
  refine Mix.sumOver fun i _ => Mix.after fun at' ha => Mix.after fun f hf => Mix.times _ ?_
  have ha := List.mem_of_getElem? (vecGet_some ha)
  unfold IonizationDetector.rNeAtom
  refine Mix.sumOver fun e he => ?_
  unfold IonizationDetector.rNeShell
  exact Mix.sumOver fun q hq => Mix.after fun w hw => Mix.times _ (hS at' ha e he q hq)

end Obscura
