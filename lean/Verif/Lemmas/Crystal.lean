import Verif.Spec.Crystal
import Verif.Lemmas.NuclearRange
import Verif.Lemmas.LimitSearch

/-!
# Helper lemmas: semiconductor targets
-/

namespace Obscura

open Spec MeasureTheory

variable {U : Units}

/-! ### Conversions -/

theorem toUIntConv_floor {x : ℝ} (h0 : 0 ≤ x) (h1 : x < 2 ^ 32) : toUIntConv ⌊x⌋ = .ok ⌊x⌋₊ := by
  have h2 : (0 : ℝ) ≤ ⌊x⌋ := by exact_mod_cast Int.floor_nonneg.2 h0
  have h3 := Int.floor_le x
  unfold toUIntConv
  rw [if_neg (by push Not; exact ⟨by linarith, by linarith⟩), Outcome.ok.injEq]
  have h4 : (⌊x⌋ : ℝ) = ((⌊x⌋₊ : ℕ) : ℝ) := by
    rw [← Int.natCast_floor_eq_floor h0]; simp
  rw [h4, Nat.floor_natCast]

theorem toIntConv_ok {x : ℝ} (h0 : 0 ≤ x) (h1 : x < 2 ^ 31) : toIntConv x = .ok (⌊x⌋₊ : ℤ) := by
  unfold toIntConv
  rw [if_neg (by push Not; exact ⟨by linarith, by linarith⟩), if_pos h0, Int.natCast_floor_eq_floor h0]

theorem toInt32_small {n : ℕ} (h : n < 2 ^ 31) : toInt32 n = n := by unfold toInt32; omega

/-! ### Construction -/

theorem collect_eq_ok_length {α β : Type} {f : α → Outcome β} {l : List α} {bs : List β} (h : collect f l = .ok bs) :
    bs.length = l.length ∧ ∀ (i : ℕ) a, l[i]? = some a → ∃ b, f a = .ok b ∧ bs[i]? = some b := by
  induction l generalizing bs with
  | nil => cases h; simp
  | cons a l ih =>
    rw [collect] at h
    obtain ⟨b, hb, h⟩ := Outcome.bind_eq_ok.1 h
    obtain ⟨bs', hbs, h⟩ := Outcome.bind_eq_ok.1 h
    cases h
    obtain ⟨h1, h2⟩ := ih hbs
    refine ⟨by simp [h1], fun i a' ha => ?_⟩
    cases i with
    | zero => simp at ha; subst ha; exact ⟨b, hb, by simp⟩
    | succ i => simp at ha; simpa using h2 i a' ha

/-- What the constructor sets. -/
structure CrystalFacts (U : Units) (c : Crystal) : Prop where
  nE : c.nE = 500
  nq : c.nq = 900
  dE : c.dE = 0.1 * U.eV
  dq : c.dq = 0.02 * U.aEM * U.mElectron
  eMax : c.eMax = 500 * c.dE
  qMax : c.qMax = 900 * c.dq
  target : (c.name = "Si" ∧ c.gap = 1.11 * U.eV ∧ c.epsilon = 3.6 * U.eV ∧ c.mCell = 2 * 28.08 * U.mNucleon ∧ c.pairsMax = 14) ∨
    (c.name = "Ge" ∧ c.gap = 0.67 * U.eV ∧ c.epsilon = 2.9 * U.eV ∧ c.mCell = 2 * 72.6 * U.mNucleon ∧ c.pairsMax = 18)

namespace Crystal

theorem pairs_si : toUIntConv (⌊((500 : ℕ) * (0.1 * U.eV) - 1.11 * U.eV + 3.6 * U.eV) / (3.6 * U.eV)⌋ : ℤ) = .ok 14 := by
  have h := U.eV_pos
  have e : ((500 : ℕ) * (0.1 * U.eV) - 1.11 * U.eV + 3.6 * U.eV) / (3.6 * U.eV) = 5249 / 360 := by
    field_simp; norm_num
  rw [e, toUIntConv_floor (by norm_num) (by norm_num), Outcome.ok.injEq, Nat.floor_eq_iff (by norm_num)]
  norm_num

theorem pairs_ge : toUIntConv (⌊((500 : ℕ) * (0.1 * U.eV) - 0.67 * U.eV + 2.9 * U.eV) / (2.9 * U.eV)⌋ : ℤ) = .ok 18 := by
  have h := U.eV_pos
  have e : ((500 : ℕ) * (0.1 * U.eV) - 0.67 * U.eV + 2.9 * U.eV) / (2.9 * U.eV) = 5223 / 290 := by
    field_simp; norm_num
  rw [e, toUIntConv_floor (by norm_num) (by norm_num), Outcome.ok.injEq, Nat.floor_eq_iff (by norm_num)]
  norm_num

/-- The table of the form factor, as the constructor fills it. -/
noncomputable def tableOf (U : Units) (prefactor : ℝ) (data : List ℝ) : Outcome (List (List ℝ)) :=
  collect (fun qi : ℕ => collect (fun ei : ℕ => do
    let a ← vecGet data (ei * 900 + qi)
    .ok (prefactor * ((qi : ℝ) + 1) / (0.1 * U.eV) * (2 / 137) / 4 * a)) (List.range 500)) (List.range 900)

theorem make_eq {P : Interpolator2D} {file : String → List ℝ} {target : String} {c : Crystal}
    (h : make U P file target = .ok c) : CrystalFacts U c ∧ c.name = target ∧
      ∃ table, tableOf U (if target = "Si" then 2 * U.eV else 1.8 * U.eV) (file target) = .ok table ∧
        c.interpolation = P (linearSpace c.dq c.qMax 900) (linearSpace c.dE c.eMax 500) table := by
  unfold make constants at h
  split_ifs at h with h1 h2
  · subst h1
    simp only [Outcome.bind_ok] at h
    rw [pairs_si, Outcome.bind_ok] at h
    obtain ⟨table, ht, h⟩ := Outcome.bind_eq_ok.1 h
    cases h
    refine ⟨⟨rfl, rfl, rfl, rfl, by norm_num, by norm_num, .inl ⟨rfl, rfl, rfl, rfl, rfl⟩⟩, rfl, table, ?_, rfl⟩
    rw [if_pos rfl]; exact ht
  · subst h2
    simp only [Outcome.bind_ok] at h
    rw [pairs_ge, Outcome.bind_ok] at h
    obtain ⟨table, ht, h⟩ := Outcome.bind_eq_ok.1 h
    cases h
    refine ⟨⟨rfl, rfl, rfl, rfl, by norm_num, by norm_num, .inr ⟨rfl, rfl, rfl, rfl, rfl⟩⟩, rfl, table, ?_, rfl⟩
    rw [if_neg (by decide)]; exact ht
  · cases h

theorem tableOf_ok (prefactor : ℝ) {data : List ℝ} (h : 450000 ≤ data.length) : ∃ t, tableOf U prefactor data = .ok t := by
  unfold tableOf
  refine ⟨_, collect_ok (g := fun qi : ℕ => (List.range 500).map fun ei : ℕ =>
    prefactor * ((qi : ℝ) + 1) / (0.1 * U.eV) * (2 / 137) / 4 * data.getD (ei * 900 + qi) 0) fun qi hq => ?_⟩
  refine collect_ok fun ei he => ?_
  have hq := List.mem_range.1 hq
  have he := List.mem_range.1 he
  rw [Detector.vecGet_getD (show ei * 900 + qi < data.length by omega) 0]
  rfl

theorem tableOf_get {prefactor : ℝ} {data : List ℝ} {t : List (List ℝ)} (h : tableOf U prefactor data = .ok t) {qi ei : ℕ}
    (hq : qi < 900) (he : ei < 500) :
    ∃ hl : ei * 900 + qi < data.length, (t[qi]?.bind fun row => row[ei]?) =
      some (prefactor * ((qi : ℝ) + 1) / (0.1 * U.eV) * (2 / 137) / 4 * data[ei * 900 + qi]) := by
  obtain ⟨_, h1⟩ := collect_eq_ok_length h
  obtain ⟨row, hr, hrow⟩ := h1 qi qi (by rw [List.getElem?_range hq])
  obtain ⟨_, h2⟩ := collect_eq_ok_length hr
  obtain ⟨x, hx, hx'⟩ := h2 ei ei (by rw [List.getElem?_range he])
  obtain ⟨a, ha, hx⟩ := Outcome.bind_eq_ok.1 hx
  cases hx
  by_cases hl : ei * 900 + qi < data.length
  · rw [vecGet_lt hl] at ha
    cases ha
    exact ⟨hl, by rw [hrow, Option.bind_some, hx']⟩
  · rw [vecGet_ge (by omega)] at ha; cases ha

theorem make_ok {P : Interpolator2D} {file : String → List ℝ} {target : String} (ht : target = "Si" ∨ target = "Ge")
    (hl : 450000 ≤ (file target).length) : ∃ c, make U P file target = .ok c := by
  obtain ⟨t, ht'⟩ := tableOf_ok (U := U) (if target = "Si" then 2 * U.eV else 1.8 * U.eV) hl
  rcases ht with rfl | rfl
  · rw [if_pos rfl] at ht'
    unfold make constants
    simp only [if_true, Outcome.bind_ok]
    rw [pairs_si, Outcome.bind_ok]
    unfold tableOf at ht'
    rw [ht']
    exact ⟨_, rfl⟩
  · rw [if_neg (by decide)] at ht'
    unfold make constants
    simp only [if_neg (show ¬ "Ge" = "Si" by decide), if_true, Outcome.bind_ok]
    rw [pairs_ge, Outcome.bind_ok]
    unfold tableOf at ht'
    rw [ht']
    exact ⟨_, rfl⟩

end Crystal

namespace CrystalFacts

variable {c : Crystal}

theorem of_built (h : BuiltCrystal U c) : CrystalFacts U c := by
  obtain ⟨P, file, t, h⟩ := h
  exact (Crystal.make_eq h).1

theorem dE_pos (h : CrystalFacts U c) : 0 < c.dE := by rw [h.dE]; have := U.eV_pos; positivity
theorem dq_pos (h : CrystalFacts U c) : 0 < c.dq := by
  rw [h.dq]; have := U.aEM_pos; have := U.mElectron_pos; positivity
theorem mCell_pos (h : CrystalFacts U c) : 0 < c.mCell := by
  have := U.mNucleon_pos
  rcases h.target with ⟨_, _, _, h, _⟩ | ⟨_, _, _, h, _⟩ <;> rw [h] <;> positivity
theorem eps_pos (h : CrystalFacts U c) : 0 < c.epsilon := by
  have := U.eV_pos
  rcases h.target with ⟨_, _, h, _⟩ | ⟨_, _, h, _⟩ <;> rw [h] <;> positivity
theorem gap_pos (h : CrystalFacts U c) : 0 < c.gap := by
  have := U.eV_pos
  rcases h.target with ⟨_, h, _⟩ | ⟨_, h, _⟩ <;> rw [h] <;> positivity
theorem gap_lt_eps (h : CrystalFacts U c) : c.gap < c.epsilon := by
  have := U.eV_pos
  rcases h.target with ⟨_, h, h', _⟩ | ⟨_, h, h', _⟩ <;> rw [h, h'] <;> linarith

end CrystalFacts

/-! ### Sums over the grid -/

theorem takeWhile_eq_filter {α : Type} {p : α → Bool} {r : α → α → Prop} {l : List α} (hl : l.Pairwise r)
    (hp : ∀ a b, r a b → p b = true → p a = true) : l.takeWhile p = l.filter p := by
  induction l with
  | nil => rfl
  | cons a l ih =>
    rw [List.pairwise_cons] at hl
    cases ha : p a with
    | true => rw [List.takeWhile_cons_of_pos ha, List.filter_cons_of_pos ha, ih hl.2]
    | false =>
      have : ∀ b ∈ l, ¬ p b = true := fun b hb hc => by
        have := hp a b (hl.1 b hb) hc; rw [ha] at this; cases this
      rw [List.takeWhile_cons_of_neg (by simp [ha]), List.filter_cons_of_neg (by simp [ha]), List.filter_eq_nil_iff.2 this]

theorem sum_map_filter (p : ℤ → Bool) (g : ℤ → ℝ) (l : List ℤ) :
    ((l.filter p).map g).sum = (l.map fun a => if p a = true then g a else 0).sum := by
  induction l with
  | nil => rfl
  | cons a l ih =>
    cases ha : p a with
    | true => rw [List.filter_cons_of_pos ha]; simp [ih, ha]
    | false => rw [List.filter_cons_of_neg (by simp [ha])]; simp [ih, ha]

theorem sum_intRange (k n : ℕ) (g : ℤ → ℝ) :
    ((intRange k n).map g).sum = ∑ j ∈ (Finset.range n).filter (fun j => k ≤ j), g j := by
  unfold intRange
  rw [List.map_map]
  have h1 : ((n : ℤ) - k).toNat = n - k := by omega
  rw [h1]
  have h2 : (Finset.range n).filter (fun j => k ≤ j) = Finset.Ico k n := by
    ext j; simp [and_comm]
  rw [h2, Finset.sum_Ico_eq_sum_range]
  change ∑ i ∈ Finset.range (n - k), g (k + i) = _
  refine Finset.sum_congr rfl fun i _ => ?_
  simp

variable {I : Integrator} {p p' : DMParticle} {h : Distribution} {c : Crystal} {rate : ℝ → ℝ}

theorem floor_grid {x d : ℝ} (hd : 0 < d) (hx : 0 ≤ x) (j : ℕ) : ⌊x / d⌋₊ ≤ j ↔ x < ((j : ℝ) + 1) * d := by
  rw [← Nat.lt_succ_iff, Nat.floor_lt (by positivity), div_lt_iff₀ hd]
  push_cast; rfl

theorem rTotal_eq (hd : 0 < c.dE) {Q : ℤ} (h0 : 0 ≤ c.minimumElectronEnergy Q) (h1 : c.minimumElectronEnergy Q / c.dE < 2 ^ 31)
    (hr : ∀ j < c.nE, dRdEeCrystal U I (gridEnergy c j) p h c = .ok (rate (gridEnergy c j))) :
    rTotalCrystal U I Q p h c = .ok (gridSum c rate fun E => c.minimumElectronEnergy Q < E) := by
  unfold rTotalCrystal
  dsimp only
  rw [toIntConv_ok (by positivity) h1, Outcome.bind_ok, sumOver_ok (g := fun i : ℤ => c.dE * rate (((i : ℝ) + 1) * c.dE))]
  · rw [sum_intRange, Outcome.ok.injEq]
    unfold gridSum gridEnergy
    simp only [floor_grid hd h0, Int.cast_natCast]
  · intro i hi
    unfold intRange at hi
    obtain ⟨j, hj, rfl⟩ := List.mem_map.1 hi
    rw [List.mem_range] at hj
    have := hr (⌊c.minimumElectronEnergy Q / c.dE⌋₊ + j) (by omega)
    unfold gridEnergy at this
    push_cast at this ⊢
    rw [this]; rfl

theorem rQ_eq (hd : 0 < c.dE) {Q : ℤ} (h0 : 0 ≤ c.minimumElectronEnergy Q) (h1 : c.minimumElectronEnergy Q / c.dE < 2 ^ 31)
    (hr : ∀ j < c.nE, dRdEeCrystal U I (gridEnergy c j) p h c = .ok (rate (gridEnergy c j))) :
    rQCrystal U I Q p h c =
      .ok (gridSum c rate fun E => c.minimumElectronEnergy Q < E ∧ E ≤ c.minimumElectronEnergy (Q + 1)) := by
  unfold rQCrystal
  dsimp only
  rw [toIntConv_ok (by positivity) h1, Outcome.bind_ok]
  have hs : (intRange (⌊c.minimumElectronEnergy Q / c.dE⌋₊ : ℤ) c.nE).Pairwise (· < ·) := by
    unfold intRange
    rw [List.pairwise_map]
    exact List.pairwise_lt_range.imp fun h => by simpa using h
  rw [takeWhile_eq_filter hs]
  · rw [sumOver_ok (g := fun i : ℤ => c.dE * rate (((i : ℝ) + 1) * c.dE))]
    · rw [sum_map_filter, sum_intRange, Outcome.ok.injEq]
      unfold gridSum gridEnergy
      simp only [floor_grid hd h0, Int.cast_natCast, decide_eq_true_eq]
      rw [← Finset.sum_filter, Finset.filter_filter]
    · intro i hi
      have hi := (List.mem_filter.1 hi).1
      unfold intRange at hi
      obtain ⟨j, hj, rfl⟩ := List.mem_map.1 hi
      rw [List.mem_range] at hj
      have := hr (⌊c.minimumElectronEnergy Q / c.dE⌋₊ + j) (by omega)
      unfold gridEnergy at this
      push_cast at this ⊢
      rw [this]; rfl
  · intro a b hab hb
    simp only [decide_eq_true_eq] at hb ⊢
    have : (a : ℝ) ≤ b := by exact_mod_cast hab.le
    exact le_trans (by gcongr) hb

theorem gridSum_split (rate : ℝ → ℝ) {A B C : ℝ → Prop} (h : ∀ E, A E ↔ B E ∨ C E) (hd : ∀ E, B E → ¬ C E) :
    gridSum c rate A = gridSum c rate B + gridSum c rate C := by
  classical
  unfold gridSum
  rw [← Finset.sum_union]
  · congr 1
    ext j
    simp only [Finset.mem_filter, Finset.mem_union, h]
    tauto
  · rw [Finset.disjoint_filter]
    exact fun j _ hB hC => hd _ hB hC

/-! ### The rate -/

theorem vMinimalElectrons_le {q E m v : ℝ} (hq : 0 < q) (hm : 0 < m) :
    vMinimalElectrons q E m ≤ v ↔ E ≤ q * v - q ^ 2 / (2 * m) := by
  unfold vMinimalElectrons
  have : E / q + q / 2 / m = (E + q ^ 2 / (2 * m)) / q := by field_simp
  rw [this, div_le_iff₀ hq]
  constructor <;> intro h <;> linarith

theorem d2SigmaCrystal_speed (q E v : ℝ) :
    v * p.d2SigmaCrystal U q E v c = 1 / v * ((1 / 1000) * (1 / 1000) * p.d2SigmaCrystal U q E (1 / 1000) c) := by
  unfold DMParticle.d2SigmaCrystal DMParticle.dSigmadq2Electron
  by_cases hv : v = 0
  · simp [hv]
  · split
    · simp only [*]
      field_simp
    · simp

theorem reach_set_electron {q E m vMax : ℝ} (hq : 0 < q) (hm : 0 < m) :
    {v : ℝ | v ≤ vMax ∧ E ≤ q * v - q ^ 2 / (2 * m)} = Set.Icc (vMinimalElectrons q E m) vMax := by
  ext v
  simp only [Set.mem_ofPred_eq, Set.mem_Icc, vMinimalElectrons_le hq hm]
  tauto

theorem d2Sigma_eq (q E v : ℝ) : crystalCrossSection U p c q E v = p.d2SigmaCrystal U q E v c := by
  unfold crystalCrossSection DMParticle.d2SigmaCrystal
  split
  · simp only [*]
    congr 2
    rw [div_div, div_div]
    congr 1
    · ring
    · ring
  · simp only [*]

/-- The computed rate is the textbook one, with either method. -/
theorem dRdEeCrystal_eq (hI : I.Exact) (hf : CrystalFacts U c) (hm : 0 < p.mass) {E : ℝ}
    (heta : p.useEtaFunction = true → h.useEta = true → ∀ i < c.nq,
      vMinimalElectrons (((i : ℝ) + 1) * c.dq) E p.mass ≤ h.vMax → EtaAt h (vMinimalElectrons (((i : ℝ) + 1) * c.dq) E p.mass)) :
    dRdEeCrystal U I E p h c = .ok (crystalRate U p h c E) := by
  have hdq := hf.dq_pos
  have hM := hf.mCell_pos
  unfold dRdEeCrystal crystalRate
  simp only [d2Sigma_eq]
  split_ifs with h1
  · have : ∀ q v, p.d2SigmaCrystal U q E v c = 0 := fun q v => by
      unfold DMParticle.d2SigmaCrystal Crystal.formFactor
      split <;> simp [h1]
    simp [this]
  · rw [sumOver_ok (g := fun i : ℕ => h.density / p.mass * (2 * (((i : ℝ) + 1) * c.dq) * c.dq *
      ∫ v in {v : ℝ | v ≤ h.vMax ∧ E ≤ ((i : ℝ) + 1) * c.dq * v - (((i : ℝ) + 1) * c.dq) ^ 2 / (2 * p.mass)},
        v * h.pdfSpeed v * p.d2SigmaCrystal U (((i : ℝ) + 1) * c.dq) E v c))]
    · rw [Outcome.bind_ok, Outcome.ok.injEq]
      change 1 / c.mCell * ∑ i ∈ Finset.range c.nq, _ = _
      rw [← Finset.mul_sum, ← mul_assoc, ← div_div]
      congr 1
      field_simp
    · intro i hi
      unfold dRdEeCrystalTerm
      have hi := List.mem_range.1 hi
      have hq : 0 < ((i : ℝ) + 1) * c.dq := by positivity
      dsimp only
      rw [reach_set_electron hq hm]
      generalize hqd : ((i : ℝ) + 1) * c.dq = q at *
      split_ifs with h2 h3
      · rw [Set.Icc_eq_empty (not_le.2 h2)]; simp
      · have h2 := not_lt.1 h2
        have he := heta h3.1 h3.2 i hi
        rw [hqd] at he
        rw [show h.eta _ = _ from he h2, Outcome.bind_ok, Outcome.ok.injEq, integral_Icc_eq_integral_Ioc,
          ← intervalIntegral.integral_of_le h2]
        have : ∀ v, v * h.pdfSpeed v * p.d2SigmaCrystal U q E v c =
            1 / 1000 * (1 / 1000) * p.d2SigmaCrystal U q E (1 / 1000) c * (h.pdfSpeed v / v) := fun v => by
          rw [mul_right_comm, d2SigmaCrystal_speed]; ring
        simp only [this, intervalIntegral.integral_const_mul]
        ring
      · have h2 := not_lt.1 h2
        rw [hI, Outcome.ok.injEq, integral_Icc_eq_integral_Ioc, ← intervalIntegral.integral_of_le h2]
        have : ∀ v, h.differentialFlux v p.mass * p.d2SigmaCrystal U q E v c =
            h.density / p.mass * (v * h.pdfSpeed v * p.d2SigmaCrystal U q E v c) := fun v => by
          unfold Distribution.differentialFlux; ring
        simp only [this, intervalIntegral.integral_const_mul]
        ring

theorem dRdEeCrystal_scale (hI : I.Homogeneous) {k E : ℝ} (hs : ScaledBy U "Electrons" k p p') :
    dRdEeCrystal U I E p' h c = (dRdEeCrystal U I E p h c).scale k := by
  have hd : ∀ q E v, p'.d2SigmaCrystal U q E v c = k * p.d2SigmaCrystal U q E v c := fun q E v => by
    unfold DMParticle.d2SigmaCrystal
    rw [hs.interaction, hs.electrons, if_pos rfl]
    split
    · ring
    · simp
  unfold dRdEeCrystal
  split_ifs with h1
  · simp [Outcome.scale]
  · rw [sumOver_scale (f := dRdEeCrystalTerm U I E p h c) k]
    · generalize sumOver _ _ = o
      cases o <;> simp [Outcome.scale]
      ring
    · intro i _
      unfold dRdEeCrystalTerm
      rw [hs.mass, hs.useEta]
      dsimp only
      split_ifs with h2 h3
      · simp [Outcome.scale]
      · cases h.eta _ <;> simp [Outcome.scale, hd]
        ring
      · simp only [Outcome.scale, Outcome.bind_ok, Outcome.ok.injEq]
        rw [mul_left_comm k, ← hI k]
        congr 2
        funext v
        rw [hd]; ring

theorem rQ_scale (hI : I.Homogeneous) {k : ℝ} {Q : ℤ} (hs : ScaledBy U "Electrons" k p p') :
    rQCrystal U I Q p' h c = (rQCrystal U I Q p h c).scale k := by
  unfold rQCrystal
  dsimp only
  cases toIntConv (c.minimumElectronEnergy Q / c.dE) <;> try rfl
  rw [Outcome.bind_ok, Outcome.bind_ok]
  refine sumOver_scale k fun i _ => ?_
  rw [dRdEeCrystal_scale hI hs]
  cases dRdEeCrystal U I _ p h c <;> simp [Outcome.scale]
  ring

theorem rTotal_scale (hI : I.Homogeneous) {k : ℝ} {Q : ℤ} (hs : ScaledBy U "Electrons" k p p') :
    rTotalCrystal U I Q p' h c = (rTotalCrystal U I Q p h c).scale k := by
  unfold rTotalCrystal
  dsimp only
  cases toIntConv (c.minimumElectronEnergy Q / c.dE) <;> try rfl
  rw [Outcome.bind_ok, Outcome.bind_ok]
  refine sumOver_scale k fun i _ => ?_
  rw [dRdEeCrystal_scale hI hs]
  cases dRdEeCrystal U I _ p h c <;> simp [Outcome.scale]
  ring

/-- Energy bins of any class with a linear rate. -/
theorem signalsEnergyBins_scale {T : Tools} {C : DetectorClass} {d : Detector} {k : ℝ} (hI : T.integrate.Homogeneous)
    (hr : ∀ E, C.dRdE d E p' = k * C.dRdE d E p) :
    d.signalsEnergyBins T C p' = d.signalsEnergyBins T C p >>= fun ss => .ok (ss.map fun s => k * s) := by
  unfold Detector.signalsEnergyBins
  split_ifs
  · rfl
  · refine collect_scale k fun i _ => ?_
    cases vecGet d.binEnergies i <;> simp [Outcome.scale]
    cases vecGet d.binEnergies (i + 1) <;> simp
    cases vecGet d.binEfficiencies i <;> simp
    have : (fun E => C.dRdE d E p') = fun E => k * C.dRdE d E p := funext hr
    rw [this, hI]; ring

namespace CrystalDetector

variable {T : Tools} {cd : CrystalDetector} {d : Detector}

theorem dRdE_scale (hI : T.integrate.Homogeneous) {k E : ℝ} (hs : ScaledBy U "Electrons" k p p') :
    (cd.dRdE U T.integrate d E p' h).valueOr0 = k * (cd.dRdE U T.integrate d E p h).valueOr0 := by
  unfold dRdE
  rw [dRdEeCrystal_scale hI hs]
  cases dRdEeCrystal U T.integrate E p h cd.crystal <;> simp [Outcome.scale, Outcome.valueOr0]
  ring

theorem signalsBinned_scale (hI : T.integrate.Homogeneous) {k : ℝ} (hs : ScaledBy U "Electrons" k p p') :
    cd.signalsBinned U T d p' h = cd.signalsBinned U T d p h >>= fun ss => .ok (ss.map fun s => k * s) := by
  unfold signalsBinned
  split_ifs with h1 h2
  · rfl
  · exact signalsEnergyBins_scale hI fun E => dRdE_scale hI hs
  · cases readMember cd.usingQBins <;> try rfl
    rw [Outcome.bind_ok, Outcome.bind_ok]
    split_ifs
    · unfold signalsQBins
      cases readMember cd.usingQBins <;> try rfl
      rw [Outcome.bind_ok, Outcome.bind_ok]
      split_ifs
      · rfl
      · cases readMember cd.qThreshold <;> try rfl
        rw [Outcome.bind_ok, Outcome.bind_ok]
        refine collect_scale k fun Q _ => ?_
        cases vecGet d.binEfficiencies (usub32 Q 1) <;> simp [Outcome.scale]
        rw [rQ_scale hI hs]
        cases rQCrystal U T.integrate (toInt32 Q) p h cd.crystal <;> simp [Outcome.scale]
        ring
    · rfl

/-- Crystal detectors meet the contract of the limit theorems. -/
theorem linearClass (hI : T.integrate.Homogeneous) : LinearClass U (cd.toClass U T h) "Electrons" := by
  constructor
  · intro d E k p p' _ _ hs
    exact dRdE_scale hI hs
  · intro d k p p' _ _ hs
    simp only [toClass]
    unfold signalsTotal
    split_ifs with h1 h2
    · rw [signalsBinned_scale hI hs]
      cases cd.signalsBinned U T d p h <;> simp [foldl_add_eq_sum, sum_map_mul]
    · rw [Outcome.bind_ok, Outcome.ok.injEq]
      have : (fun E => (cd.dRdE U T.integrate d E p' h).valueOr0) = fun E => k * (cd.dRdE U T.integrate d E p h).valueOr0 :=
        funext fun E => dRdE_scale hI hs
      rw [this, hI]; ring
    · cases readMember cd.usingQThreshold <;> try rfl
      rw [Outcome.bind_ok, Outcome.bind_ok]
      split_ifs
      · cases readMember cd.qThreshold <;> try rfl
        rw [Outcome.bind_ok, Outcome.bind_ok, rTotal_scale hI hs]
        cases rTotalCrystal U T.integrate _ p h cd.crystal <;> simp [Outcome.scale]
        ring
      · simp
  · intro d k p p' _ _ hs
    exact signalsBinned_scale hI hs
  · intro d p u c s ss
    exact ⟨rfl, rfl, fun E => rfl⟩

end CrystalDetector
end Obscura
