import Verif.Lemmas.NuclearDetector

/-!
# Compositions of targets: order and repetition
-/

namespace Obscura

open NuclearDetector

variable {U : Units}

/-! ### Loops over pairs of lists -/

theorem collect_of_map {α β γ : Type} (f : β → Outcome γ) (e : α → β) (l : List α) : collect f (l.map e) = collect (fun a => f (e a)) l := by
  induction l with
  | nil => rfl
  | cons a l ih => rw [List.map_cons, collect, collect, ih]

theorem collect_congr {α β : Type} {f g : α → Outcome β} {l : List α} (h : ∀ a ∈ l, f a = g a) : collect f l = collect g l := by
  induction l with
  | nil => rfl
  | cons a l ih => rw [collect, collect, h a (by simp), ih fun b hb => h b (by simp [hb])]

theorem collect_range {α β : Type} (l : List α) (f : ℕ → Outcome β) (g : α → Outcome β) (h : ∀ i (hi : i < l.length), f i = g l[i]) :
    collect f (List.range l.length) = collect g l := by
  induction l generalizing f with
  | nil => rfl
  | cons a l ih =>
    rw [List.length_cons, List.range_succ_eq_map, collect, collect, collect_of_map, ih _ fun i hi => ?_, h 0 (by simp)]
    · rfl
    · have := h (i + 1) (by simpa using hi)
      simpa using this

/-- The same values in another order have the same sum; and fail if the others do. -/
theorem collect_perm {α β : Type} {f : α → Outcome β} {l l' : List α} (h : l.Perm l') {xs : List β} (hx : collect f l = .ok xs) :
    ∃ xs', collect f l' = .ok xs' ∧ xs.Perm xs' := by
  induction h generalizing xs with
  | nil => exact ⟨_, hx, .refl _⟩
  | cons a _ ih =>
    obtain ⟨b, h1, h2⟩ := Outcome.bind_eq_ok.1 hx
    obtain ⟨bs, h3, h4⟩ := Outcome.bind_eq_ok.1 h2
    obtain ⟨bs', h5, h6⟩ := ih h3
    cases h4
    exact ⟨b :: bs', by simp [collect, h1, h5], .cons _ h6⟩
  | swap a b l =>
    obtain ⟨x, h1, h2⟩ := Outcome.bind_eq_ok.1 hx
    obtain ⟨ys, h3, h4⟩ := Outcome.bind_eq_ok.1 h2
    obtain ⟨y, h5, h6⟩ := Outcome.bind_eq_ok.1 h3
    obtain ⟨zs, h7, h8⟩ := Outcome.bind_eq_ok.1 h6
    cases h8
    cases h4
    exact ⟨y :: x :: zs, by simp [collect, h1, h5, h7], .swap _ _ _⟩
  | trans _ _ ih1 ih2 =>
    obtain ⟨ys, h1, h2⟩ := ih1 hx
    obtain ⟨zs, h3, h4⟩ := ih2 h1
    exact ⟨zs, h3, h2.trans h4⟩

theorem sumOver_perm_ok {α : Type} {f : α → Outcome ℝ} {l l' : List α} (h : l.Perm l') {x : ℝ} (hx : sumOver f l = .ok x) :
    sumOver f l' = .ok x := by
  obtain ⟨xs, h1, h2⟩ := Outcome.bind_eq_ok.1 hx
  obtain ⟨xs', h3, h4⟩ := collect_perm h h1
  rw [sumOver, h3, Outcome.bind_ok, ← h2, foldl_add_eq_sum, foldl_add_eq_sum, h4.sum_eq]

theorem sumOver_perm {α : Type} {f : α → Outcome ℝ} {l l' : List α} (h : l.Perm l') : (sumOver f l).valueOr0 = (sumOver f l').valueOr0 := by
  cases h1 : sumOver f l with
  | ok x => rw [sumOver_perm_ok h h1]
  | _ =>
    cases h2 : sumOver f l' with
    | ok x => rw [sumOver_perm_ok h.symm h2] at h1; cases h1
    | _ => rfl

/-- If only one kind of failure is possible, the outcome depends on the members only. -/
theorem collect_members {α β : Type} {f : α → Outcome β} {l l' : List α} (h : ∀ a, a ∈ l ↔ a ∈ l')
    (hf : ∀ a ∈ l, (∃ b, f a = .ok b) ∨ f a = .nonfinite) :
    (∃ xs xs', collect f l = .ok xs ∧ collect f l' = .ok xs' ∧ ∀ b, b ∈ xs ↔ b ∈ xs') ∨ (collect f l = .nonfinite ∧ collect f l' = .nonfinite) := by
  have good : ∀ l : List α, (∀ a ∈ l, ∃ b, f a = .ok b) → ∃ xs, collect f l = .ok xs ∧ ∀ b, b ∈ xs ↔ ∃ a ∈ l, f a = .ok b := by
    intro l hl
    induction l with
    | nil => exact ⟨[], rfl, by simp⟩
    | cons a l ih =>
      obtain ⟨c, hc⟩ := hl a (by simp)
      obtain ⟨xs, h1, h2⟩ := ih fun a ha => hl a (by simp [ha])
      refine ⟨c :: xs, by rw [collect, hc, h1]; rfl, fun b => ?_⟩
      rw [List.mem_cons, h2]
      simp only [List.mem_cons, exists_eq_or_imp, hc, Outcome.ok.injEq]
      exact or_congr_left eq_comm
  have bad : ∀ l : List α, (∀ a ∈ l, (∃ b, f a = .ok b) ∨ f a = .nonfinite) → (∃ a ∈ l, f a = .nonfinite) → collect f l = .nonfinite := by
    intro l hl
    induction l with
    | nil => simp
    | cons a l ih =>
      rintro ⟨x, hx, hxf⟩
      rcases hl a (by simp) with ⟨b, hb⟩ | hb
      · rcases List.mem_cons.1 hx with rfl | hx
        · rw [hxf] at hb; cases hb
        · rw [collect, hb, ih (fun c hc => hl c (by simp [hc])) ⟨x, hx, hxf⟩]; rfl
      · rw [collect, hb]; rfl
  by_cases hall : ∀ a ∈ l, ∃ b, f a = .ok b
  · obtain ⟨xs, h1, h2⟩ := good l hall
    obtain ⟨xs', h3, h4⟩ := good l' fun a ha => hall a ((h a).2 ha)
    exact .inl ⟨xs, xs', h1, h3, fun b => by rw [h2, h4]; simp [h]⟩
  · push Not at hall
    obtain ⟨a, ha, hne⟩ := hall
    have hfa : f a = .nonfinite := (hf a ha).resolve_left fun ⟨b, hb⟩ => hne b hb
    exact .inr ⟨bad l hf ⟨a, ha, hfa⟩, bad l' (fun c hc => hf c ((h c).2 hc)) ⟨a, (h a).1 ha, hfa⟩⟩

theorem minElement_members {l l' : List ℝ} (h : ∀ x, x ∈ l ↔ x ∈ l') : minElement l = minElement l' := by
  have key : ∀ (a : ℝ) (l : List ℝ) (x : ℝ), x ≤ l.foldl min a ↔ x ≤ a ∧ ∀ y ∈ l, x ≤ y := by
    intro a l x
    induction l generalizing a with
    | nil => simp
    | cons b l ih => simp [ih, and_assoc]
  match l, l', h with
  | [], [], _ => rfl
  | [], b :: _, h => exact absurd ((h b).2 (by simp)) (by simp)
  | a :: _, [], h => exact absurd ((h a).1 (by simp)) (by simp)
  | a :: l, b :: l', h =>
    unfold minElement
    refine congrArg Outcome.ok (eq_of_forall_le_iff fun x => ?_)
    rw [key, key]
    have : ∀ c l, (x ≤ c ∧ ∀ y ∈ l, x ≤ y) ↔ ∀ y ∈ c :: l, x ≤ y := by simp
    rw [this, this]
    exact ⟨fun hx y hy => hx y ((h y).2 hy), fun hx y hy => hx y ((h y).1 hy)⟩

/-! ### Cross sections fail for all isotopes or for none -/

theorem sigmaTotal_uniform (I : Integrator) (p : DMParticle) :
    (∃ s : Isotope → ℝ → ℝ, ∀ iso v, p.sigmaTotalNucleus U I iso v = .ok (s iso v)) ∨
    (∀ iso v, p.sigmaTotalNucleus U I iso v = .exit) ∨ (∀ iso v, p.sigmaTotalNucleus U I iso v = .nonfinite) := by
  unfold DMParticle.sigmaTotalNucleus
  cases p.interaction with
  | SD =>
    left
    refine ⟨fun iso _ => if iso.spin ≠ 0 then
      4 * reducedMass p.mass iso.mass ^ 2 / Real.pi * (iso.spin + 1) / iso.spin * (p.fp * iso.sp + p.fn * iso.sn) ^ 2 else 0, fun iso v => ?_⟩
    simp only
    split_ifs <;> rfl
  | SI ff qRef mMed =>
    simp only
    by_cases h1 : ff ≠ .contact ∧ ff ≠ .general
    · exact .inr (.inl fun iso v => by rw [if_pos h1])
    simp only [if_neg h1]
    by_cases h2 : (!p.lowMass) = true
    · exact .inl ⟨_, fun iso v => by rw [if_pos h2]⟩
    simp only [if_neg h2]
    by_cases h3 : ff = .general
    · simp only [if_pos h3]
      by_cases h4 : mMed = 0
      · exact .inr (.inr fun iso v => by simp [DMParticle.generalFactor, h4, fdiv_zero])
      · left
        refine ⟨fun iso v => reducedMass p.mass iso.mass ^ 2 / Real.pi * (p.fp * iso.Z + p.fn * iso.neutrons) ^ 2 *
          ((qRef * qRef + mMed * mMed) ^ 2 / mMed / mMed / (mMed * mMed + 4 * (reducedMass p.mass iso.mass * v) ^ 2)), fun iso v => ?_⟩
        have h5 : mMed * mMed + 4 * (reducedMass p.mass iso.mass * v) ^ 2 ≠ 0 :=
          (add_pos_of_pos_of_nonneg (mul_self_pos.2 h4) (by positivity)).ne'
        rw [DMParticle.generalFactor, fdiv_ok h4, Outcome.bind_ok, fdiv_ok h4, Outcome.bind_ok, fdiv_ok h5, Outcome.bind_ok]
    · exact .inl ⟨_, fun iso v => by rw [if_neg h3]⟩

/-! ### Loops over the isotopes -/

theorem depositLoop_members (I : Integrator) (p : DMParticle) (vMax : ℝ) {l l' : List Isotope} (h : ∀ a, a ∈ l ↔ a ∈ l') (E : ℝ) :
    depositLoop U I p vMax l E = depositLoop U I p vMax l' E := by
  have fail : ∀ o : Outcome ℝ, (∀ iso l E, E < maximumNuclearRecoilEnergy vMax p.mass iso.mass → depositLoop U I p vMax (iso :: l) E = o) →
      depositLoop U I p vMax l E = depositLoop U I p vMax l' E := by
    intro o ho
    have key : ∀ l : List Isotope, ((∃ iso ∈ l, E < maximumNuclearRecoilEnergy vMax p.mass iso.mass) → depositLoop U I p vMax l E = o) ∧
        ((¬ ∃ iso ∈ l, E < maximumNuclearRecoilEnergy vMax p.mass iso.mass) → depositLoop U I p vMax l E = .ok E) := by
      intro l
      induction l with
      | nil => simp [depositLoop]
      | cons a l ih =>
        by_cases ha : E < maximumNuclearRecoilEnergy vMax p.mass a.mass
        · exact ⟨fun _ => ho a l E ha, fun hn => absurd ⟨a, by simp, ha⟩ hn⟩
        · have e : depositLoop U I p vMax (a :: l) E = depositLoop U I p vMax l E := by
            rw [depositLoop]; rw [if_neg ha]
          rw [e]
          simpa [ha] using ih
    by_cases hx : ∃ iso ∈ l, E < maximumNuclearRecoilEnergy vMax p.mass iso.mass
    · rw [(key l).1 hx, (key l').1 (by simpa [h] using hx)]
    · rw [(key l).2 hx, (key l').2 (by simpa [h] using hx)]
  rcases sigmaTotal_uniform (U := U) I p with ⟨s, hs⟩ | hs | hs
  · have key : ∀ (l : List Isotope) (E : ℝ), ∃ R, depositLoop U I p vMax l E = .ok R ∧
        ∀ x, R ≤ x ↔ E ≤ x ∧ ∀ iso ∈ l, 0 < s iso vMax → maximumNuclearRecoilEnergy vMax p.mass iso.mass ≤ x := by
      intro l
      induction l with
      | nil => exact fun E => ⟨E, rfl, by simp⟩
      | cons a l ih =>
        intro E
        simp only [depositLoop, hs, Outcome.bind_ok, List.mem_cons, forall_eq_or_imp]
        split_ifs with h1 h2
        · obtain ⟨R, h3, h4⟩ := ih (maximumNuclearRecoilEnergy vMax p.mass a.mass)
          refine ⟨R, h3, fun x => ?_⟩
          rw [h4]
          exact ⟨fun k => ⟨h1.le.trans k.1, fun _ => k.1, k.2⟩, fun k => ⟨k.2.1 h2, k.2.2⟩⟩
        · obtain ⟨R, h3, h4⟩ := ih E
          refine ⟨R, h3, fun x => ?_⟩
          rw [h4]
          exact ⟨fun k => ⟨k.1, fun k' => absurd k' h2, k.2⟩, fun k => ⟨k.1, k.2.2⟩⟩
        · obtain ⟨R, h3, h4⟩ := ih E
          refine ⟨R, h3, fun x => ?_⟩
          rw [h4]
          exact ⟨fun k => ⟨k.1, fun _ => (not_lt.1 h1).trans k.1, k.2⟩, fun k => ⟨k.1, k.2.2⟩⟩
    obtain ⟨R, h1, h2⟩ := key l E
    obtain ⟨R', h3, h4⟩ := key l' E
    rw [h1, h3]
    refine congrArg Outcome.ok (eq_of_forall_ge_iff fun x => ?_)
    rw [h2, h4]
    simp only [h]
  · exact fail .exit fun iso l E hE => by
      rw [depositLoop]; rw [if_pos hE, hs]; rfl
  · exact fail .nonfinite fun iso l E hE => by
      rw [depositLoop]; rw [if_pos hE, hs]; rfl

theorem speedLoop_members (I : Integrator) (p : DMParticle) (E : ℝ) {l l' : List Isotope} (h : ∀ a, a ∈ l ↔ a ∈ l') (v : ℝ) :
    speedLoop U I p E l v = speedLoop U I p E l' v := by
  have fail : ∀ o : Outcome ℝ, (∀ iso l v, vMinimalNucleus E p.mass iso.mass < v → speedLoop U I p E (iso :: l) v = o) →
      speedLoop U I p E l v = speedLoop U I p E l' v := by
    intro o ho
    have key : ∀ l : List Isotope, ((∃ iso ∈ l, vMinimalNucleus E p.mass iso.mass < v) → speedLoop U I p E l v = o) ∧
        ((¬ ∃ iso ∈ l, vMinimalNucleus E p.mass iso.mass < v) → speedLoop U I p E l v = .ok v) := by
      intro l
      induction l with
      | nil => simp [speedLoop]
      | cons a l ih =>
        by_cases ha : vMinimalNucleus E p.mass a.mass < v
        · exact ⟨fun _ => ho a l v ha, fun hn => absurd ⟨a, by simp, ha⟩ hn⟩
        · have e : speedLoop U I p E (a :: l) v = speedLoop U I p E l v := by
            rw [speedLoop]; rw [if_neg ha]
          rw [e]
          simpa [ha] using ih
    by_cases hx : ∃ iso ∈ l, vMinimalNucleus E p.mass iso.mass < v
    · rw [(key l).1 hx, (key l').1 (by simpa [h] using hx)]
    · rw [(key l).2 hx, (key l').2 (by simpa [h] using hx)]
  rcases sigmaTotal_uniform (U := U) I p with ⟨s, hs⟩ | hs | hs
  · have key : ∀ (l : List Isotope) (v : ℝ), ∃ R, speedLoop U I p E l v = .ok R ∧
        ∀ x, x ≤ R ↔ x ≤ v ∧ ∀ iso ∈ l, 0 < s iso (1 / 1000) → x ≤ vMinimalNucleus E p.mass iso.mass := by
      intro l
      induction l with
      | nil => exact fun E => ⟨E, rfl, by simp⟩
      | cons a l ih =>
        intro v
        simp only [speedLoop, hs, Outcome.bind_ok, List.mem_cons, forall_eq_or_imp]
        split_ifs with h1 h2
        · obtain ⟨R, h3, h4⟩ := ih (vMinimalNucleus E p.mass a.mass)
          refine ⟨R, h3, fun x => ?_⟩
          rw [h4]
          exact ⟨fun k => ⟨k.1.trans h1.le, fun _ => k.1, k.2⟩, fun k => ⟨k.2.1 h2, k.2.2⟩⟩
        · obtain ⟨R, h3, h4⟩ := ih v
          refine ⟨R, h3, fun x => ?_⟩
          rw [h4]
          exact ⟨fun k => ⟨k.1, fun k' => absurd k' h2, k.2⟩, fun k => ⟨k.1, k.2.2⟩⟩
        · obtain ⟨R, h3, h4⟩ := ih v
          refine ⟨R, h3, fun x => ?_⟩
          rw [h4]
          exact ⟨fun k => ⟨k.1, fun _ => k.1.trans (not_lt.1 h1), k.2⟩, fun k => ⟨k.1, k.2.2⟩⟩
    obtain ⟨R, h1, h2⟩ := key l v
    obtain ⟨R', h3, h4⟩ := key l' v
    rw [h1, h3]
    refine congrArg Outcome.ok (eq_of_forall_le_iff fun x => ?_)
    rw [h2, h4]
    simp only [h]
  · exact fail .exit fun iso l v hv => by rw [speedLoop]; rw [if_pos hv, hs]; rfl
  · exact fail .nonfinite fun iso l v hv => by rw [speedLoop]; rw [if_pos hv, hs]; rfl

theorem massLoop_members (I : Integrator) (p : DMParticle) (E vMax : ℝ) {l l' : List Isotope} (h : ∀ a, a ∈ l ↔ a ∈ l') :
    (massLoop U I p E vMax l >>= minElement) = (massLoop U I p E vMax l' >>= minElement) := by
  classical
  rcases sigmaTotal_uniform (U := U) I p with ⟨s, hs⟩ | hs | hs
  · have e : ∀ l, massLoop U I p E vMax l = collect (minimumMassIsotope E vMax) (l.filter fun iso => 0 < s iso vMax) := by
      intro l
      induction l with
      | nil => rfl
      | cons a l ih =>
        rw [massLoop, hs, Outcome.bind_ok]
        by_cases h0 : 0 < s a vMax
        · rw [if_pos h0, ih, List.filter_cons_of_pos (by simpa using h0), collect]
        · rw [if_neg h0, ih, List.filter_cons_of_neg (by simpa using h0)]
    have hk : ∀ iso, (∃ b, minimumMassIsotope E vMax iso = .ok b) ∨ minimumMassIsotope E vMax iso = .nonfinite := by
      intro iso
      unfold minimumMassIsotope
      split_ifs
      · exact .inl ⟨_, rfl⟩
      · by_cases h1 : E = 0
        · right; rw [h1, fdiv_zero]; rfl
        · rw [fdiv_ok h1, Outcome.bind_ok]
          unfold fsqrt
          split_ifs
          · exact .inr rfl
          · rw [Outcome.bind_ok]
            unfold fdiv
            split_ifs
            · exact .inr rfl
            · exact .inl ⟨_, rfl⟩
    rw [e, e]
    have hm : ∀ a, a ∈ l.filter (fun iso => 0 < s iso vMax) ↔ a ∈ l'.filter (fun iso => 0 < s iso vMax) := by simp [h]
    rcases collect_members hm (fun a _ => hk a) with ⟨xs, xs', h1, h2, h3⟩ | ⟨h1, h2⟩
    · rw [h1, h2, Outcome.bind_ok, Outcome.bind_ok, minElement_members h3]
    · rw [h1, h2]
  · cases l with
    | nil =>
      cases l' with
      | nil => rfl
      | cons b l' => exact absurd ((h b).2 (by simp)) (by simp)
    | cons a l =>
      cases l' with
      | nil => exact absurd ((h a).1 (by simp)) (by simp)
      | cons b l' => simp [massLoop, hs]
  · cases l with
    | nil =>
      cases l' with
      | nil => rfl
      | cons b l' => exact absurd ((h b).2 (by simp)) (by simp)
    | cons a l =>
      cases l' with
      | nil => exact absurd ((h a).1 (by simp)) (by simp)
      | cons b l' => simp [massLoop, hs]

/-! ### The detector of a composition -/

/-- The share by mass of an entry in a list of elements with ratios. -/
noncomputable def share (l : List (Nucleus × ℝ)) (x : Nucleus × ℝ) : ℝ :=
  open Classical in
  if (l.map Prod.snd).sum ≤ 1 then x.2 else x.2 * x.1.averageMass / (l.map fun y => y.2 * y.1.averageMass).sum

theorem massFractions_pairs (l : List (Nucleus × ℝ)) :
    massFractions (l.map Prod.fst) (l.map Prod.snd) =
      open Classical in
      if 1 < (l.map Prod.snd).sum ∧ (l.map fun y => y.2 * y.1.averageMass).sum = 0 then .nonfinite else .ok (l.map (share l)) := by
  classical
  unfold massFractions
  rw [foldl_add_eq_sum]
  have hne : 1 < (l.map Prod.snd).sum → l ≠ [] := by
    rintro h rfl
    norm_num at h
  have h1 : collect (fun i => do
      let n ← vecGet (l.map Prod.fst) i
      let a ← if l.map Prod.snd = [] then .ok 1 else vecGet (l.map Prod.snd) i
      .ok (a * n.averageMass)) (List.range (l.map Prod.fst).length) = .ok (l.map fun y => y.2 * y.1.averageMass) := by
    rw [List.length_map, collect_range l _ fun y => .ok (y.2 * y.1.averageMass)]
    · exact collect_ok fun _ _ => rfl
    · intro i hi
      have : ¬ l.map Prod.snd = [] := by
        intro h
        have : l = [] := by simpa using h
        rw [this] at hi
        simp at hi
      rw [vecGet_lt (by simpa using hi), Outcome.bind_ok, if_neg this, vecGet_lt (by simpa using hi), Outcome.bind_ok]
      simp
  by_cases h : 1 < (l.map Prod.snd).sum
  · rw [if_pos (.inr h), h1, Outcome.bind_ok, foldl_add_eq_sum, collect_of_map]
    by_cases h0 : (l.map fun y => y.2 * y.1.averageMass).sum = 0
    · rw [if_pos ⟨h, h0⟩]
      rw [h0]
      match l, hne h with
      | a :: l, _ => rw [collect, fdiv_zero]; rfl
    · rw [if_neg (fun hh => h0 hh.2)]
      exact collect_ok fun x _ => by rw [fdiv_ok h0, share, if_neg (not_le.2 h)]
  · have e : l.map (share l) = l.map Prod.snd := List.map_congr_left fun x _ => by rw [share, if_pos (not_lt.1 h)]
    have h2 : ¬ (1 < (l.map Prod.snd).sum ∧ (l.map fun y => y.2 * y.1.averageMass).sum = 0) := fun hh => h hh.1
    rw [if_neg h2, e]
    by_cases hl : l.map Prod.snd = []
    · rw [if_pos (.inl hl), h1]
      have : l = [] := by simpa using hl
      subst this
      rfl
    · have h3 : ¬ (l.map Prod.snd = [] ∨ 1 < (l.map Prod.snd).sum) := fun hh => hh.elim hl h
      rw [if_neg h3]

theorem share_perm {l l' : List (Nucleus × ℝ)} (h : l.Perm l') : share l = share l' := by
  funext x
  rw [share, share, (h.map _).sum_eq, (h.map fun y : Nucleus × ℝ => y.2 * y.1.averageMass).sum_eq]

/-- The detector with at most one table of efficiencies. -/
def compound (l : List (Nucleus × ℝ)) (res : ℝ) (table : Option (ℝ → ℝ)) : NuclearDetector :=
  { nuclei := l.map Prod.fst, fractions := l.map Prod.snd, resolution := res, usingTables := table.isSome, efficiencies := table.toList }

theorem theoryRate_compound (I : Integrator) (l : List (Nucleus × ℝ)) (res : ℝ) (table : Option (ℝ → ℝ)) (d : Detector) (E ER : ℝ) (p : DMParticle)
    (h : Distribution) :
    (compound l res table).theoryRate U I d E ER p h = sumOver (fun x => do
      let r ← dRdERNucleus U I ER p h x.1
      .ok (table.elim 1 (fun f => f E) * d.flatEfficiency * x.2 * r)) l := by
  unfold theoryRate sumOver
  rw [show (compound l res table).nuclei.length = l.length by simp [compound], collect_range l]
  intro i hi
  rw [show vecGet (compound l res table).nuclei i = .ok (l[i].1) by rw [vecGet_lt (by simpa [compound] using hi)]; simp [compound],
    show vecGet (compound l res table).fractions i = .ok (l[i].2) by rw [vecGet_lt (by simpa [compound] using hi)]; simp [compound],
    show (compound l res table).efficiency i E = .ok (table.elim 1 fun f => f E) by cases table <;> simp [efficiency, compound, vecGet]]
  simp

/-- Two compositions of the same isotopes with the same rates are the same for every detector function. -/
theorem compound_class (T : Tools) (h : Distribution) {l l' : List (Nucleus × ℝ)} (res : ℝ) (table : Option (ℝ → ℝ))
    (hm : ∀ iso, iso ∈ (l.map Prod.fst).flatMap Nucleus.isotopes ↔ iso ∈ (l'.map Prod.fst).flatMap Nucleus.isotopes)
    (hr : ∀ (k ER : ℝ) (p : DMParticle), (sumOver (fun x : Nucleus × ℝ => do
        let r ← dRdERNucleus U T.integrate ER p h x.1
        .ok (k * x.2 * r)) l).valueOr0 = (sumOver (fun x : Nucleus × ℝ => do
        let r ← dRdERNucleus U T.integrate ER p h x.1
        .ok (k * x.2 * r)) l').valueOr0) :
    (compound l res table).toClass U T h = (compound l' res table).toClass U T h ∧
      ∀ d p, (compound l res table).minimumDMSpeed U T.integrate d p = (compound l' res table).minimumDMSpeed U T.integrate d p := by
  have h1 : ∀ p, (compound l res table).maximumEnergyDeposit U T.integrate p h = (compound l' res table).maximumEnergyDeposit U T.integrate p h := by
    intro p
    unfold maximumEnergyDeposit
    rw [depositLoop_members (l := (compound l res table).isotopes) (l' := (compound l' res table).isotopes) T.integrate p h.vMax hm]
    rfl
  have h2 : ∀ d p, (compound l res table).minimumDMMass U T.integrate d p h = (compound l' res table).minimumDMMass U T.integrate d p h := by
    intro d p
    exact massLoop_members (l' := (compound l' res table).isotopes) T.integrate p _ h.vMax hm
  have h3 : ∀ d E p, ((compound l res table).dRdE U T.integrate d E p h).valueOr0 = ((compound l' res table).dRdE U T.integrate d E p h).valueOr0 := by
    intro d E p
    unfold dRdE
    rw [show (compound l res table).resolution = res from rfl, show (compound l' res table).resolution = res from rfl]
    split_ifs
    · rw [theoryRate_compound, theoryRate_compound]
      exact hr _ _ _
    · simp only [theoryRate_compound]
      refine congrArg Outcome.valueOr0 (congrArg Outcome.ok ?_)
      congr 1
      funext ER
      rw [hr]
  refine ⟨?_, fun d p => speedLoop_members (l' := (compound l' res table).isotopes) T.integrate p _ hm 1⟩
  unfold toClass
  simp only [h1, h2, h3]

end Obscura
