import Verif.Props.Mixture
import Verif.Lemmas.Poisson

/-!
# C92 — the reach of a mixture is that of its components together
-/

namespace Obscura

open Spec NuclearDetector Mixture

variable {U : Units} {T : Tools} {I : Integrator} {p : DMParticle} {h : Distribution} {d : Detector}

namespace Mixture

theorem depositLoop_ge {vMax : ℝ} {l : List Isotope} {E x : ℝ} (h1 : depositLoop U I p vMax l E = .ok x) : E ≤ x := by
  induction l generalizing E with
  | nil => cases h1; exact le_rfl
  | cons a l ih =>
    rw [depositLoop] at h1
    by_cases hE : E < maximumNuclearRecoilEnergy vMax p.mass a.mass
    · simp only [if_pos hE] at h1
      obtain ⟨s, -, h2⟩ := Outcome.bind_eq_ok.1 h1
      split_ifs at h2
      · exact hE.le.trans (ih h2)
      · exact ih h2
    · simp only [if_neg hE] at h1
      exact ih h1

theorem depositLoop_start {vMax : ℝ} {l : List Isotope} {E E' x : ℝ} (h1 : depositLoop U I p vMax l E = .ok x) (hE : E ≤ E') :
    depositLoop U I p vMax l E' = .ok (max E' x) := by
  induction l generalizing E E' with
  | nil => cases h1; rw [max_eq_left hE]; rfl
  | cons a l ih =>
    rw [depositLoop] at h1 ⊢
    by_cases hr' : E' < maximumNuclearRecoilEnergy vMax p.mass a.mass
    · have hr := lt_of_le_of_lt hE hr'
      simp only [if_pos hr] at h1
      simp only [if_pos hr']
      obtain ⟨s, hs, h2⟩ := Outcome.bind_eq_ok.1 h1
      rw [hs, Outcome.bind_ok]
      by_cases h0 : 0 < s
      · rw [if_pos h0] at h2 ⊢
        rw [h2, max_eq_right (hr'.le.trans (depositLoop_ge h2))]
      · rw [if_neg h0] at h2 ⊢
        exact ih h2 hE
    · simp only [if_neg hr']
      by_cases hr : E < maximumNuclearRecoilEnergy vMax p.mass a.mass
      · simp only [if_pos hr] at h1
        obtain ⟨s, hs, h2⟩ := Outcome.bind_eq_ok.1 h1
        by_cases h0 : 0 < s
        · rw [if_pos h0] at h2
          exact ih h2 (not_lt.1 hr')
        · rw [if_neg h0] at h2
          exact ih h2 hE
      · simp only [if_neg hr] at h1
        exact ih h1 hE

theorem depositLoop_append (vMax : ℝ) (l l' : List Isotope) (E : ℝ) :
    depositLoop U I p vMax (l ++ l') E = depositLoop U I p vMax l E >>= depositLoop U I p vMax l' := by
  induction l generalizing E with
  | nil => rfl
  | cons a l ih =>
    rw [List.cons_append, depositLoop, depositLoop]
    by_cases hE : E < maximumNuclearRecoilEnergy vMax p.mass a.mass
    · simp only [if_pos hE]
      cases p.sigmaTotalNucleus U I a vMax with
      | ok s =>
        simp only [Outcome.bind_ok]
        split_ifs <;> exact ih _
      | _ => rfl
    · simp only [if_neg hE]
      exact ih E

theorem speedLoop_le {E : ℝ} {l : List Isotope} {v x : ℝ} (h1 : speedLoop U I p E l v = .ok x) : x ≤ v := by
  induction l generalizing v with
  | nil => cases h1; exact le_rfl
  | cons a l ih =>
    rw [speedLoop] at h1
    by_cases hE : vMinimalNucleus E p.mass a.mass < v
    · simp only [if_pos hE] at h1
      obtain ⟨s, -, h2⟩ := Outcome.bind_eq_ok.1 h1
      split_ifs at h2
      · exact (ih h2).trans hE.le
      · exact ih h2
    · simp only [if_neg hE] at h1
      exact ih h1

theorem speedLoop_start {E : ℝ} {l : List Isotope} {v v' x : ℝ} (h1 : speedLoop U I p E l v = .ok x) (hE : v' ≤ v) :
    speedLoop U I p E l v' = .ok (min v' x) := by
  induction l generalizing v v' with
  | nil => cases h1; rw [min_eq_left hE]; rfl
  | cons a l ih =>
    rw [speedLoop] at h1 ⊢
    by_cases hr' : vMinimalNucleus E p.mass a.mass < v'
    · have hr := lt_of_lt_of_le hr' hE
      simp only [if_pos hr] at h1
      simp only [if_pos hr']
      obtain ⟨s, hs, h2⟩ := Outcome.bind_eq_ok.1 h1
      rw [hs, Outcome.bind_ok]
      by_cases h0 : 0 < s
      · rw [if_pos h0] at h2 ⊢
        rw [h2, min_eq_right ((speedLoop_le h2).trans hr'.le)]
      · rw [if_neg h0] at h2 ⊢
        exact ih h2 hE
    · simp only [if_neg hr']
      by_cases hr : vMinimalNucleus E p.mass a.mass < v
      · simp only [if_pos hr] at h1
        obtain ⟨s, hs, h2⟩ := Outcome.bind_eq_ok.1 h1
        by_cases h0 : 0 < s
        · rw [if_pos h0] at h2
          exact ih h2 (not_lt.1 hr')
        · rw [if_neg h0] at h2
          exact ih h2 hE
      · simp only [if_neg hr] at h1
        exact ih h1 hE

theorem speedLoop_append (E : ℝ) (l l' : List Isotope) (v : ℝ) :
    speedLoop U I p E (l ++ l') v = speedLoop U I p E l v >>= speedLoop U I p E l' := by
  induction l generalizing v with
  | nil => rfl
  | cons a l ih =>
    rw [List.cons_append, speedLoop, speedLoop]
    by_cases hE : vMinimalNucleus E p.mass a.mass < v
    · simp only [if_pos hE]
      cases p.sigmaTotalNucleus U I a (1 / 1000) with
      | ok s =>
        simp only [Outcome.bind_ok]
        split_ifs <;> exact ih _
      | _ => rfl
    · simp only [if_neg hE]
      exact ih v

theorem massLoop_append (E vMax : ℝ) (l l' : List Isotope) :
    massLoop U I p E vMax (l ++ l') = massLoop U I p E vMax l >>= fun xs => massLoop U I p E vMax l' >>= fun ys => .ok (xs ++ ys) := by
  induction l with
  | nil =>
    simp only [List.nil_append, massLoop, Outcome.bind_ok]
    cases massLoop U I p E vMax l' <;> rfl
  | cons a l ih =>
    rw [List.cons_append, massLoop, massLoop]
    cases p.sigmaTotalNucleus U I a vMax with
    | ok s =>
      simp only [Outcome.bind_ok]
      split_ifs
      · rw [ih]
        cases minimumMassIsotope E vMax a with
        | ok m =>
          simp only [Outcome.bind_ok]
          cases massLoop U I p E vMax l with
          | ok xs =>
            simp only [Outcome.bind_ok]
            cases massLoop U I p E vMax l' <;> rfl
          | _ => rfl
        | _ => rfl
      · exact ih
    | _ => rfl

/-- The isotopes of a list of elements, one element after the other: largest values. -/
theorem deposit_elements {vMax : ℝ} {ns : List Nucleus} {E : Nucleus → ℝ} (hE : ∀ n ∈ ns, depositLoop U I p vMax n.isotopes 0 = .ok (E n))
    {x : ℝ} (hx : 0 ≤ x) : depositLoop U I p vMax (ns.flatMap Nucleus.isotopes) x = .ok (ns.foldl (fun m n => max m (E n)) x) := by
  induction ns generalizing x with
  | nil => rfl
  | cons n ns ih =>
    rw [List.flatMap_cons, depositLoop_append, depositLoop_start (hE n (by simp)) hx, Outcome.bind_ok,
      ih (fun k hk => hE k (by simp [hk])) (hx.trans (le_max_left _ _))]
    rfl

theorem speed_elements {E : ℝ} {ns : List Nucleus} {v : Nucleus → ℝ} (hv : ∀ n ∈ ns, speedLoop U I p E n.isotopes 1 = .ok (v n))
    {x : ℝ} (hx : x ≤ 1) : speedLoop U I p E (ns.flatMap Nucleus.isotopes) x = .ok (ns.foldl (fun m n => min m (v n)) x) := by
  induction ns generalizing x with
  | nil => rfl
  | cons n ns ih =>
    rw [List.flatMap_cons, speedLoop_append, speedLoop_start (hv n (by simp)) hx, Outcome.bind_ok,
      ih (fun k hk => hv k (by simp [hk])) ((min_le_left _ _).trans hx)]
    rfl

theorem foldl_max_isGreatest {ns : List Nucleus} {E : Nucleus → ℝ} (hne : ns ≠ []) {x : ℝ} (hx : ∀ n ∈ ns, x ≤ E n) :
    IsGreatest {y | ∃ n ∈ ns, y = E n} (ns.foldl (fun m n => max m (E n)) x) := by
  have key : ∀ (ns : List Nucleus) (x : ℝ), x ≤ ns.foldl (fun m n => max m (E n)) x ∧ (∀ n ∈ ns, E n ≤ ns.foldl (fun m n => max m (E n)) x) ∧
      (ns.foldl (fun m n => max m (E n)) x = x ∨ ∃ n ∈ ns, ns.foldl (fun m n => max m (E n)) x = E n) := by
    intro ns
    induction ns with
    | nil => intro x; simp
    | cons a ns ih =>
      intro x
      obtain ⟨h1, h2, h3⟩ := ih (max x (E a))
      simp only [List.foldl_cons, List.mem_cons, forall_eq_or_imp, exists_eq_or_imp]
      refine ⟨(le_max_left _ _).trans h1, ⟨(le_max_right _ _).trans h1, h2⟩, ?_⟩
      rcases h3 with h3 | ⟨n, hn, h3⟩
      · rcases max_choice x (E a) with hc | hc <;> rw [hc] at h3 ⊢
        · exact .inl h3
        · exact .inr (.inl h3)
      · exact .inr (.inr ⟨n, hn, h3⟩)
  obtain ⟨-, h2, h3⟩ := key ns x
  refine ⟨?_, ?_⟩
  · rcases h3 with h3 | ⟨n, hn, h3⟩
    · obtain ⟨a, l, rfl⟩ := List.exists_cons_of_ne_nil hne
      exact ⟨a, by simp, le_antisymm (h3.le.trans (hx a (by simp))) (h2 a (by simp))⟩
    · exact ⟨n, hn, h3⟩
  · rintro _ ⟨n, hn, rfl⟩
    exact h2 n hn

theorem foldl_min_isLeast' {ns : List Nucleus} {v : Nucleus → ℝ} (hne : ns ≠ []) {x : ℝ} (hx : ∀ n ∈ ns, v n ≤ x) :
    IsLeast {y | ∃ n ∈ ns, y = v n} (ns.foldl (fun m n => min m (v n)) x) := by
  have key : ∀ (ns : List Nucleus) (x : ℝ), (∀ n ∈ ns, ns.foldl (fun m n => min m (v n)) x ≤ v n) ∧ ns.foldl (fun m n => min m (v n)) x ≤ x ∧
      (ns.foldl (fun m n => min m (v n)) x = x ∨ ∃ n ∈ ns, ns.foldl (fun m n => min m (v n)) x = v n) := by
    intro ns
    induction ns with
    | nil => intro x; simp
    | cons a ns ih =>
      intro x
      obtain ⟨h2, h1, h3⟩ := ih (min x (v a))
      simp only [List.foldl_cons, List.mem_cons, forall_eq_or_imp, exists_eq_or_imp]
      refine ⟨⟨h1.trans (min_le_right _ _), h2⟩, h1.trans (min_le_left _ _), ?_⟩
      rcases h3 with h3 | ⟨n, hn, h3⟩
      · rcases min_choice x (v a) with hc | hc <;> rw [hc] at h3 ⊢
        · exact .inl h3
        · exact .inr (.inl h3)
      · exact .inr (.inr ⟨n, hn, h3⟩)
  obtain ⟨h2, -, h3⟩ := key ns x
  refine ⟨?_, ?_⟩
  · rcases h3 with h3 | ⟨n, hn, h3⟩
    · obtain ⟨a, l, rfl⟩ := List.exists_cons_of_ne_nil hne
      exact ⟨a, by simp, le_antisymm (h2 a (by simp)) ((hx a (by simp)).trans h3.ge)⟩
    · exact ⟨n, hn, h3⟩
  · rintro _ ⟨n, hn, rfl⟩
    exact h2 n hn

theorem isotopes_pure (n : Nucleus) (res : ℝ) (table : Option (ℝ → ℝ)) : (compound [(n, 1)] res table).isotopes = n.isotopes := by
  simp [isotopes, compound]

theorem isotopes_mixed (l : List (Nucleus × ℝ)) (g : Nucleus × ℝ → ℝ) (res : ℝ) (table : Option (ℝ → ℝ)) :
    (compound (l.map fun x => (x.1, g x)) res table).isotopes = (l.map Prod.fst).flatMap Nucleus.isotopes := by
  simp [isotopes, compound, Function.comp_def]

end Mixture

variable {l : List (Nucleus × ℝ)} {label : String} {expo : ℝ} {e : Detector} {nd : NuclearDetector} {c : Nucleus → NuclearDetector}

/-- C92 (largest energy). The largest energy deposited in a compound is the largest one deposited in one of its elements. -/
theorem C92_largest_energy (hm : NuclearDetector.make label expo (l.map Prod.fst) (l.map Prod.snd) = .ok (e, nd))
    (hp : ∀ n ∈ l.map Prod.fst, Alone n (c n)) (hne : l ≠ []) (res : ℝ) (table : Option (ℝ → ℝ)) {E : Nucleus → ℝ}
    (hE : ∀ n ∈ l.map Prod.fst, (equipped (c n) res table).maximumEnergyDeposit U I p h = .ok (E n)) :
    ∃ M, (equipped nd res table).maximumEnergyDeposit U I p h = .ok M ∧ IsGreatest {y | ∃ n ∈ l.map Prod.fst, y = E n} M := by
  have hE' : ∀ n ∈ l.map Prod.fst, depositLoop U I p h.vMax n.isotopes 0 = .ok (E n - 6 * res) := by
    intro n hn
    have := hE n hn
    rw [pure_eq (hp n hn), equipped_compound] at this
    unfold maximumEnergyDeposit at this
    rw [isotopes_pure] at this
    obtain ⟨x, h1, h2⟩ := Outcome.bind_eq_ok.1 this
    rw [h1]
    simp only [Outcome.ok.injEq, compound] at h2 ⊢
    linarith
  have h1 := deposit_elements hE' le_rfl
  have h2 := foldl_max_isGreatest (E := fun n => E n - 6 * res) (x := 0) (by simpa using hne) fun n hn => depositLoop_ge (hE' n hn)
  refine ⟨(l.map Prod.fst).foldl (fun m n => max m (E n - 6 * res)) 0 + 6 * res, ?_, ?_⟩
  · rw [mixed_eq hm, equipped_compound]
    unfold maximumEnergyDeposit
    rw [isotopes_mixed, h1, Outcome.bind_ok]
    rfl
  · obtain ⟨⟨n, hn, h3⟩, h4⟩ := h2
    refine ⟨⟨n, hn, by linarith⟩, ?_⟩
    rintro _ ⟨k, hk, rfl⟩
    have := h4 ⟨k, hk, rfl⟩
    linarith

/-- C92 (smallest speed). The smallest speed a compound is sensitive to is the smallest one of its elements. -/
theorem C92_smallest_speed (hm : NuclearDetector.make label expo (l.map Prod.fst) (l.map Prod.snd) = .ok (e, nd))
    (hp : ∀ n ∈ l.map Prod.fst, Alone n (c n)) (hne : l ≠ []) (res : ℝ) (table : Option (ℝ → ℝ)) {v : Nucleus → ℝ}
    (hv : ∀ n ∈ l.map Prod.fst, (equipped (c n) res table).minimumDMSpeed U I d p = .ok (v n)) :
    ∃ m, (equipped nd res table).minimumDMSpeed U I d p = .ok m ∧ IsLeast {y | ∃ n ∈ l.map Prod.fst, y = v n} m := by
  have hv' : ∀ n ∈ l.map Prod.fst, speedLoop U I p (d.energyThreshold - 2 * res) n.isotopes 1 = .ok (v n) := by
    intro n hn
    have := hv n hn
    rw [pure_eq (hp n hn), equipped_compound] at this
    unfold minimumDMSpeed at this
    rwa [isotopes_pure] at this
  refine ⟨_, ?_, foldl_min_isLeast' (v := v) (x := 1) (by simpa using hne) fun n hn => speedLoop_le (hv' n hn)⟩
  rw [mixed_eq hm, equipped_compound]
  unfold minimumDMSpeed
  rw [isotopes_mixed]
  exact speed_elements hv' le_rfl

/-- C92 (smallest mass). The smallest mass a compound is sensitive to is the smallest one of those elements that are sensitive to any; an element
without isotopes the particle scatters off has undefined behaviour on its own. -/
theorem C92_smallest_mass (hm : NuclearDetector.make label expo (l.map Prod.fst) (l.map Prod.snd) = .ok (e, nd))
    (hp : ∀ n ∈ l.map Prod.fst, Alone n (c n)) (res : ℝ) (table : Option (ℝ → ℝ))
    (hok : ∀ n ∈ l.map Prod.fst, (∃ m, (equipped (c n) res table).minimumDMMass U I d p h = .ok m) ∨
      (equipped (c n) res table).minimumDMMass U I d p h = .ub)
    (hex : ∃ n ∈ l.map Prod.fst, ∃ m, (equipped (c n) res table).minimumDMMass U I d p h = .ok m) :
    ∃ M, (equipped nd res table).minimumDMMass U I d p h = .ok M ∧
      IsLeast {m | ∃ n ∈ l.map Prod.fst, (equipped (c n) res table).minimumDMMass U I d p h = .ok m} M := by
  set E := d.energyThreshold - 2 * res with hEd
  have hpm : ∀ n ∈ l.map Prod.fst, (equipped (c n) res table).minimumDMMass U I d p h = massLoop U I p E h.vMax n.isotopes >>= minElement := by
    intro n hn
    rw [pure_eq (hp n hn), equipped_compound]
    unfold minimumDMMass
    rw [isotopes_pure]
    rfl
  have hnub : ∀ is : List Isotope, massLoop U I p E h.vMax is ≠ .ub := by
    intro is
    induction is with
    | nil => simp [massLoop]
    | cons a is ih =>
      rw [massLoop]
      intro hub
      rcases sigmaTotal_uniform (U := U) I p with ⟨s, hs⟩ | hs | hs
      · rw [hs, Outcome.bind_ok] at hub
        split_ifs at hub
        · have hn : minimumMassIsotope E h.vMax a ≠ .ub := by
            unfold minimumMassIsotope fdiv fsqrt
            split_ifs <;> simp
            split_ifs <;> simp
            split_ifs <;> simp
          cases hmi : minimumMassIsotope E h.vMax a with
          | ok m =>
            rw [hmi, Outcome.bind_ok] at hub
            cases hml : massLoop U I p E h.vMax is with
            | ok ms => rw [hml] at hub; cases hub
            | ub => exact ih hml
            | exit => rw [hml] at hub; cases hub
            | nonfinite => rw [hml] at hub; cases hub
          | ub => exact hn hmi
          | exit => rw [hmi] at hub; cases hub
          | nonfinite => rw [hmi] at hub; cases hub
        · exact ih hub
      · rw [hs] at hub; cases hub
      · rw [hs] at hub; cases hub
  have hlist : ∀ n ∈ l.map Prod.fst, ∃ ms, massLoop U I p E h.vMax n.isotopes = .ok ms := by
    intro n hn
    rcases hok n hn with ⟨m, hm'⟩ | hm'
    · rw [hpm n hn] at hm'
      obtain ⟨ms, h1, -⟩ := Outcome.bind_eq_ok.1 hm'
      exact ⟨ms, h1⟩
    · rw [hpm n hn] at hm'
      cases hml : massLoop U I p E h.vMax n.isotopes with
      | ok ms => exact ⟨ms, rfl⟩
      | ub => exact absurd hml (hnub _)
      | exit => rw [hml] at hm'; cases hm'
      | nonfinite => rw [hml] at hm'; cases hm'
  choose! ms hms using hlist
  have hall : massLoop U I p E h.vMax ((l.map Prod.fst).flatMap Nucleus.isotopes) = .ok ((l.map Prod.fst).flatMap ms) := by
    have : ∀ ns : List Nucleus, (∀ n ∈ ns, massLoop U I p E h.vMax n.isotopes = .ok (ms n)) →
        massLoop U I p E h.vMax (ns.flatMap Nucleus.isotopes) = .ok (ns.flatMap ms) := by
      intro ns hns
      induction ns with
      | nil => rfl
      | cons n ns ih =>
        rw [List.flatMap_cons, massLoop_append, hns n (by simp), Outcome.bind_ok, ih fun k hk => hns k (by simp [hk]), Outcome.bind_ok,
          List.flatMap_cons]
    exact this _ hms
  have hmix : (equipped nd res table).minimumDMMass U I d p h = minElement ((l.map Prod.fst).flatMap ms) := by
    rw [mixed_eq hm, equipped_compound]
    unfold minimumDMMass
    rw [isotopes_mixed]
    change massLoop U I p E h.vMax _ >>= minElement = _
    rw [hall, Outcome.bind_ok]
  have hiff : ∀ n ∈ l.map Prod.fst, ∀ m, (equipped (c n) res table).minimumDMMass U I d p h = .ok m ↔ minElement (ms n) = .ok m := by
    intro n hn m
    rw [hpm n hn, hms n hn, Outcome.bind_ok]
  have hne : (l.map Prod.fst).flatMap ms ≠ [] := by
    obtain ⟨n, hn, m, h1⟩ := hex
    rw [hiff n hn] at h1
    intro h0
    have : ms n = [] := by
      by_contra hc
      obtain ⟨a, ha⟩ := List.exists_mem_of_ne_nil _ hc
      have : a ∈ (l.map Prod.fst).flatMap ms := List.mem_flatMap.2 ⟨n, hn, ha⟩
      rw [h0] at this
      simp at this
    rw [this] at h1
    cases h1
  obtain ⟨M, h1, h2, h3⟩ := minElement_isLeast hne
  refine ⟨M, by rw [hmix, h1], ?_, ?_⟩
  · obtain ⟨n, hn, hM⟩ := List.mem_flatMap.1 h2
    refine ⟨n, hn, ?_⟩
    rw [hiff n hn]
    obtain ⟨M', h4, h5, h6⟩ := minElement_isLeast (List.ne_nil_of_mem hM)
    rw [h4, le_antisymm (h6 hM) (h3 (List.mem_flatMap.2 ⟨n, hn, h5⟩))]
  · rintro m ⟨n, hn, h4⟩
    rw [hiff n hn] at h4
    have hne' : ms n ≠ [] := by
      intro h0
      rw [h0] at h4
      cases h4
    obtain ⟨M', h5, h6, -⟩ := minElement_isLeast hne'
    rw [h4] at h5
    cases h5
    exact h3 (List.mem_flatMap.2 ⟨n, hn, h6⟩)

end Obscura
