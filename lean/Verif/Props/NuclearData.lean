import Verif.Spec.NuclearData
import Verif.Model.NuclearTable
import Mathlib.Tactic.IntervalCases

/-!
# C51, C60 — nuclear data
-/

namespace Obscura

open Spec

variable {U : Units}

theorem names_length : nucleusNames.length = 118 := by rfl

theorem row_isotope {r : NuclearRow} (h : 1 ≤ r.Z ∧ r.Z ≤ 92) : r.isotope U = .ok (isotopeOf U r) := by
  unfold NuclearRow.isotope Isotope.make
  rw [if_pos ⟨h.1, by omega⟩]; rfl

theorem ofIsotopes_ok {isos : List Isotope} {Z : ℕ} (h0 : isos ≠ []) (hZ : ∀ iso ∈ isos, iso.Z = Z) (h1 : 1 ≤ Z) (h2 : Z ≤ 92) :
    Nucleus.ofIsotopes isos = .ok { Z := some Z, isotopes := isos, name := nucleusNames.getD (Z - 1) "" } := by
  obtain ⟨a, l, rfl⟩ := List.exists_cons_of_ne_nil h0
  have ha : a.Z = Z := hZ a (by simp)
  have hl : Z - 1 < nucleusNames.length := by rw [names_length]; omega
  unfold Nucleus.ofIsotopes
  simp only [vecGet, List.getElem?_cons_zero, Outcome.bind_ok, ha]
  rw [if_neg (by omega)]
  simp [hl, List.getD]

/-- What the loop appends: the current group completed, then one group for every later element. -/
theorem importLoop_groups (rows : List NuclearRow) :
    ∀ (zOld : ℕ) (isos : List Isotope) (nuclei : List Nucleus), rows.Pairwise (fun r s => r.Z ≤ s.Z) →
      (∀ r ∈ rows, zOld ≤ r.Z ∧ r.Z ≤ 92) → 1 ≤ zOld → zOld ≤ 92 → (∀ Z, zOld < Z → Z ≤ 92 → ∃ r ∈ rows, r.Z = Z) →
      (∀ iso ∈ isos, iso.Z = zOld) → (isos ≠ [] ∨ ∃ r ∈ rows, r.Z = zOld) →
      importLoop U rows zOld isos nuclei = .ok (nuclei ++
        { Z := some zOld, isotopes := isos ++ (rows.filter fun r => r.Z = zOld).map (isotopeOf U),
          name := nucleusNames.getD (zOld - 1) "" } ::
        (List.range' (zOld + 1) (92 - zOld)).map (element U rows)) := by
  induction rows with
  | nil =>
    intro z isos nuclei _ _ h1 h2 hc hi hne
    have hz : z = 92 := by
      by_contra h
      obtain ⟨r, hr, _⟩ := hc 92 (by omega) le_rfl
      simp at hr
    have hne : isos ≠ [] := hne.elim id (by simp)
    simp only [importLoop, ofIsotopes_ok hne hi h1 h2, Outcome.bind_ok, hz]
    simp
  | cons r rows ih =>
    intro z isos nuclei hs hr h1 h2 hc hi hne
    have hr0 := hr r (by simp)
    have hs' := (List.pairwise_cons.1 hs)
    have hiso : r.isotope U = .ok (isotopeOf U r) := row_isotope ⟨by omega, hr0.2⟩
    unfold importLoop
    split_ifs with hlt
    · have hz : r.Z = z + 1 := by
        obtain ⟨s, hs1, hs2⟩ := hc (z + 1) (by omega) (by omega)
        rcases List.mem_cons.1 hs1 with rfl | hs1
        · exact hs2
        · have := hs'.1 s hs1; omega
      have hne' : isos ≠ [] := by
        rcases hne with h | ⟨s, hs1, hs2⟩
        · exact h
        · rcases List.mem_cons.1 hs1 with rfl | hs1
          · omega
          · have := hs'.1 s hs1; omega
      have hno : (r :: rows).filter (fun r => r.Z = z) = [] := by
        rw [List.filter_eq_nil_iff]
        intro s hs1
        rcases List.mem_cons.1 hs1 with rfl | hs1
        · simp; omega
        · have := hs'.1 s hs1; simp; omega
      simp only [ofIsotopes_ok hne' hi h1 h2, hiso, Outcome.bind_ok]
      rw [ih r.Z [isotopeOf U r] _ hs'.2 (fun s hs1 => ⟨hs'.1 s hs1, (hr s (by simp [hs1])).2⟩) (by omega) hr0.2
        (fun Z hZ hZ' => by
          obtain ⟨s, hs1, hs2⟩ := hc Z (by omega) hZ'
          rcases List.mem_cons.1 hs1 with rfl | hs1
          · omega
          · exact ⟨s, hs1, hs2⟩)
        (by simp [isotopeOf]) (.inl (by simp))]
      have h92 : 92 - z = (92 - r.Z) + 1 := by omega
      rw [hno, h92, List.range'_succ, ← hz]
      congr 1
      simp only [List.append_assoc, List.map_cons, List.map_nil, List.append_nil, List.cons_append, List.nil_append]
      congr 3
      · simp [element, isotopeOf]
      · refine List.map_congr_left fun Z hZ => ?_
        have : r.Z ≠ Z := by
          have := (List.mem_range'_1.1 hZ).1; omega
        simp [element, this]
    · have hz : r.Z = z := by omega
      simp only [hiso, Outcome.bind_ok]
      rw [ih z (isos ++ [isotopeOf U r]) nuclei hs'.2 (fun s hs1 => ⟨hz ▸ hs'.1 s hs1, (hr s (by simp [hs1])).2⟩) h1 h2
        (fun Z hZ hZ' => by
          obtain ⟨s, hs1, hs2⟩ := hc Z hZ hZ'
          rcases List.mem_cons.1 hs1 with rfl | hs1
          · omega
          · exact ⟨s, hs1, hs2⟩)
        (fun iso h => by
          rcases List.mem_append.1 h with h | h
          · exact hi iso h
          · simp only [List.mem_singleton] at h; subst h; exact hz)
        (.inl (by simp))]
      congr 3
      · simp [hz]
      · refine List.map_congr_left fun Z hZ => ?_
        have : r.Z ≠ Z := by
          have := (List.mem_range'_1.1 hZ).1; omega
        simp [element, this]

theorem import_wellFormed {rows : List NuclearRow} (h : WellFormed rows) :
    importNuclearData U (some rows) = .ok ((List.range' 1 92).map (element U rows)) := by
  unfold importNuclearData
  simp only
  rw [importLoop_groups rows 1 [] [] h.sorted h.range le_rfl (by norm_num) (fun Z h1 h2 => h.complete Z (by omega) h2) (by simp)
    (.inr (h.complete 1 le_rfl (by norm_num)))]
  congr 1

theorem cache_reachable {rows : List NuclearRow} (h : WellFormed rows) {c : List Nucleus} (hc : CacheReachable U (some rows) c) :
    c = [] ∨ c = (List.range' 1 92).map (element U rows) := by
  induction hc with
  | start => exact .inl rfl
  | lookup h1 h2 ih =>
    right
    unfold getNucleus at h2
    split_ifs at h2 with hz hl
    · obtain ⟨c1, e1, e2⟩ := Outcome.bind_eq_ok.1 h2
      obtain ⟨n, e3, e4⟩ := Outcome.bind_eq_ok.1 e2
      cases e4
      rw [import_wellFormed h] at e1
      cases e1; rfl
    · simp only [Outcome.bind_ok] at h2
      obtain ⟨n, e3, e4⟩ := Outcome.bind_eq_ok.1 h2
      cases e4
      rcases ih with rfl | ih
      · simp at hl
      · exact ih

/-- C51 (by number). Whatever was looked up before, `Get_Nucleus(Z)` returns the element with `Z` protons and exactly its isotopes
when `1 ≤ Z ≤ 92`, and exits otherwise. -/
theorem C51_get_nucleus {rows : List NuclearRow} (h : WellFormed rows) {c : List Nucleus}
    (hc : CacheReachable U (some rows) c) (Z : ℕ) :
    (1 ≤ Z ∧ Z ≤ 92 → ∃ c', getNucleus U (some rows) c Z = .ok (c', element U rows Z)) ∧
    (¬ (1 ≤ Z ∧ Z ≤ 92) → getNucleus U (some rows) c Z = .exit) := by
  constructor
  · rintro ⟨h1, h2⟩
    refine ⟨(List.range' 1 92).map (element U rows), ?_⟩
    have hget : vecGet ((List.range' 1 92).map (element U rows)) (Z - 1) = .ok (element U rows Z) := by
      rw [vecGet_lt (by simp; omega)]
      simp only [List.getElem_map, List.getElem_range']
      congr 2; omega
    unfold getNucleus
    rw [if_neg (by omega)]
    rcases cache_reachable h hc with rfl | rfl
    · simp only [List.length_nil, if_true, import_wellFormed h, Outcome.bind_ok, hget]
    · rw [if_neg (by simp)]
      simp only [Outcome.bind_ok, hget]
  · intro hz
    unfold getNucleus
    rw [if_pos (by omega)]

theorem names_injective : ∀ i < 92, ∀ j < 92, nucleusNames.getD i "" = nucleusNames.getD j "" → i = j := by
  have : nucleusNames.Nodup := by decide +kernel
  intro i hi j hj h
  have h1 : i < nucleusNames.length := by rw [names_length]; omega
  have h2 : j < nucleusNames.length := by rw [names_length]; omega
  rw [List.getD_eq_getElem?_getD, List.getD_eq_getElem?_getD, List.getElem?_eq_getElem h1, List.getElem?_eq_getElem h2] at h
  exact (List.Nodup.getElem_inj_iff this).1 h

theorem findNucleus_spec {rows : List NuclearRow} (h : WellFormed rows) (name : String) (k : ℕ) :
    ∀ (s : ℕ) (c : List Nucleus), CacheReachable U (some rows) c → 1 ≤ s → s + k ≤ 93 →
      (∀ Z, s ≤ Z → Z < s + k → nucleusNames.getD (Z - 1) "" = name →
        ∃ c', findNucleus U (some rows) name (List.range' s k) c = .ok (c', element U rows Z)) ∧
      ((∀ Z, s ≤ Z → Z < s + k → nucleusNames.getD (Z - 1) "" ≠ name) →
        findNucleus U (some rows) name (List.range' s k) c = .exit) := by
  induction k with
  | zero => intro s c _ _ _; exact ⟨fun Z h1 h2 => by omega, fun _ => rfl⟩
  | succ k ih =>
    intro s c hc h1 h2
    obtain ⟨c', hget⟩ := (C51_get_nucleus (U := U) h hc s).1 ⟨h1, by omega⟩
    have hc' := CacheReachable.lookup hc hget
    obtain ⟨ih1, ih2⟩ := ih (s + 1) c' hc' (by omega) (by omega)
    rw [List.range'_succ]
    unfold findNucleus
    simp only [hget, Outcome.bind_ok]
    constructor
    · intro Z hZ1 hZ2 hZ
      by_cases he : Z = s
      · subst he
        rw [if_pos (show (element U rows Z).name = name from hZ)]
        exact (C51_get_nucleus (U := U) h hc' Z).1 ⟨h1, by omega⟩
      · have hne : ¬ (element U rows s).name = name := by
          intro hn
          have := names_injective (s - 1) (by omega) (Z - 1) (by omega) (by rw [hZ]; exact hn)
          omega
        rw [if_neg hne]
        exact ih1 Z (by omega) (by omega) hZ
    · intro hno
      rw [if_neg (show ¬ (element U rows s).name = name from hno s le_rfl (by omega))]
      exact ih2 fun Z hZ1 hZ2 => hno Z (by omega) (by omega)

/-- C51 (by name). `Get_Nucleus(name)` returns the element of that name, and exits when none of the first 92 elements has it. -/
theorem C51_get_nucleus_by_name {rows : List NuclearRow} (h : WellFormed rows) {c : List Nucleus}
    (hc : CacheReachable U (some rows) c) (name : String) :
    (∀ Z, 1 ≤ Z → Z ≤ 92 → nucleusNames.getD (Z - 1) "" = name →
      ∃ c', getNucleusByName U (some rows) c name = .ok (c', element U rows Z)) ∧
    ((∀ Z, 1 ≤ Z → Z ≤ 92 → nucleusNames.getD (Z - 1) "" ≠ name) → getNucleusByName U (some rows) c name = .exit) := by
  obtain ⟨h1, h2⟩ := findNucleus_spec (U := U) h name 92 1 c hc le_rfl (by norm_num)
  exact ⟨fun Z a b e => h1 Z a (by omega) e, fun hno => h2 fun Z a b => hno Z a (by omega)⟩

/-- C51 (isotopes). `Get_Isotope(Z, A)` returns an isotope with `Z` protons and `A` nucleons that is in the file, if there is one;
otherwise it exits. -/
theorem C51_get_isotope {rows : List NuclearRow} (h : WellFormed rows) {c : List Nucleus}
    (hc : CacheReachable U (some rows) c) (Z A : ℕ) :
    ((∃ r ∈ rows, r.Z = Z ∧ r.A = A) → ∃ c' r, r ∈ rows ∧ r.Z = Z ∧ r.A = A ∧
      getIsotope U (some rows) c Z A = .ok (c', isotopeOf U r)) ∧
    ((∀ r ∈ rows, ¬ (r.Z = Z ∧ r.A = A)) → getIsotope U (some rows) c Z A = .exit) := by
  constructor
  · rintro ⟨r, hr, rfl, rfl⟩
    obtain ⟨c', hget⟩ := (C51_get_nucleus (U := U) h hc r.Z).1 (h.range r hr)
    unfold getIsotope
    simp only [hget, Outcome.bind_ok, Nucleus.getIsotope]
    cases hf : (element U rows r.Z).isotopes.find? (fun iso => decide (iso.A = r.A)) with
    | none =>
      rw [List.find?_eq_none] at hf
      have := hf (isotopeOf U r) (by
        simp only [element, List.mem_map, List.mem_filter]
        exact ⟨r, ⟨hr, by simp⟩, rfl⟩)
      simp [isotopeOf] at this
    | some iso =>
      have h1 := List.find?_some hf
      have h2 := List.mem_of_find?_eq_some hf
      simp only [element, List.mem_map, List.mem_filter, decide_eq_true_eq] at h2
      obtain ⟨s, ⟨hs1, hs2⟩, rfl⟩ := h2
      exact ⟨c', s, hs1, hs2, of_decide_eq_true h1, rfl⟩
  · intro hno
    by_cases hz : 1 ≤ Z ∧ Z ≤ 92
    · obtain ⟨c', hget⟩ := (C51_get_nucleus (U := U) h hc Z).1 hz
      unfold getIsotope
      simp only [hget, Outcome.bind_ok, Nucleus.getIsotope]
      have hf : (element U rows Z).isotopes.find? (fun iso => decide (iso.A = A)) = none := by
        rw [List.find?_eq_none]
        intro iso hi
        simp only [element, List.mem_map, List.mem_filter, decide_eq_true_eq] at hi
        obtain ⟨s, ⟨hs1, hs2⟩, rfl⟩ := hi
        exact fun e => hno s hs1 ⟨hs2, of_decide_eq_true e⟩
      rw [hf]; rfl
    · unfold getIsotope
      rw [(C51_get_nucleus (U := U) h hc Z).2 hz]; rfl

/-- C51 (missing file). Without the data file every lookup exits. -/
theorem C51_missing_file (Z : ℕ) : getNucleus U none [] Z = .exit := by
  unfold getNucleus importNuclearData
  split_ifs <;> simp_all

/-- Check of the shipped table: sorted, in range, complete, with the names of `Nucleus_Names`. -/
theorem shipped_check : (shippedRows.Pairwise fun r s => r.Z ≤ s.Z) ∧
    (shippedRows.all fun r => decide (1 ≤ r.Z ∧ r.Z ≤ 92 ∧ r.Z ≤ r.A)) = true ∧
    ((List.range' 1 92).all fun Z => shippedRows.any fun r => r.Z == Z) = true ∧
    (shippedRows.all fun r => nucleusNames.getD (r.Z - 1) "" == r.name) = true := by
  decide +kernel

/-- C51 (the shipped file is such a file), and the element names of the code are those of the file. -/
theorem C51_shipped_table : WellFormed shippedTable ∧
    (∀ r ∈ shippedTable, (element U shippedTable r.Z).name = r.name) ∧ ∀ r ∈ shippedTable, r.Z ≤ r.A := by
  obtain ⟨h1, h2, h3, h4⟩ := shipped_check
  rw [List.all_eq_true] at h2 h3 h4
  refine ⟨⟨?_, ?_, ?_⟩, ?_, ?_⟩
  · unfold shippedTable; rw [List.pairwise_map]; exact h1
  · intro r hr
    obtain ⟨s, hs, rfl⟩ := List.mem_map.1 hr
    have := of_decide_eq_true (h2 s hs)
    exact ⟨this.1, this.2.1⟩
  · intro Z hZ1 hZ2
    have := h3 Z (List.mem_range'_1.2 ⟨hZ1, by omega⟩)
    obtain ⟨s, hs, he⟩ := List.any_eq_true.1 this
    exact ⟨s.toRow, List.mem_map.2 ⟨s, hs, rfl⟩, by simpa [RawRow.toRow] using he⟩
  · intro r hr
    obtain ⟨s, hs, rfl⟩ := List.mem_map.1 hr
    simpa [element, RawRow.toRow] using h4 s hs
  · intro r hr
    obtain ⟨s, hs, rfl⟩ := List.mem_map.1 hr
    exact (of_decide_eq_true (h2 s hs)).2.2

/-- The sum of the abundances of element `Z`, in units of 10⁻⁸. -/
def rawTotal (Z : ℕ) : ℕ := ((shippedRows.filter fun r => r.Z == Z).map RawRow.abundance).sum

/-- The elements of the shipped file whose abundances do not add up to one: Ca, Tc, Xe, Pm, Ta, Hg. -/
def unnormalisedElements : List ℕ := [20, 43, 54, 61, 73, 80]

theorem rawTotal_check : ((List.range' 1 92).all fun Z => unnormalisedElements.contains Z || rawTotal Z == 10 ^ 8) = true ∧
    rawTotal 20 = 100003000 ∧ rawTotal 43 = 0 ∧ rawTotal 54 = 99999000 ∧ rawTotal 61 = 0 ∧ rawTotal 73 = 99988000 ∧
    rawTotal 80 = 99990000 := by
  decide +kernel

theorem abundance_sum (Z : ℕ) :
    ((element U shippedTable Z).isotopes.map Isotope.abundance).sum = (rawTotal Z : ℝ) / 10 ^ 8 := by
  unfold element shippedTable rawTotal
  simp only
  induction shippedRows with
  | nil => simp
  | cons r rows ih =>
    by_cases h : r.Z = Z
    · have h1 : r.toRow.Z = Z := h
      simp only [List.map_cons, List.filter_cons, h1, decide_true, if_true, List.sum_cons, beq_iff_eq, h] at ih ⊢
      rw [ih]
      push_cast
      simp only [isotopeOf, RawRow.toRow]
      ring
    · have h1 : ¬ r.toRow.Z = Z := h
      simp only [List.map_cons, List.filter_cons, h1, decide_false, Bool.false_eq_true, if_false, beq_iff_eq, h] at ih ⊢
      exact ih

/-- C60 (partial: all elements but six). In the shipped data no abundance is negative, and the abundances of the isotopes of every
element add up to exactly one, except for calcium, technetium, xenon, promethium, tantalum and mercury. -/
theorem C60_abundances_partial :
    (∀ r ∈ shippedTable, 0 ≤ r.abundance) ∧
    ∀ Z, 1 ≤ Z → Z ≤ 92 → Z ∉ [20, 43, 54, 61, 73, 80] →
      ((element U shippedTable Z).isotopes.map Isotope.abundance).sum = 1 := by
  constructor
  · intro r hr
    obtain ⟨s, _, rfl⟩ := List.mem_map.1 hr
    simp only [RawRow.toRow]; positivity
  · intro Z h1 h2 h3
    have h := List.all_eq_true.1 rawTotal_check.1 Z (List.mem_range'_1.2 ⟨h1, by omega⟩)
    have h4 : unnormalisedElements.contains Z = false := by
      simpa [unnormalisedElements] using h3
    rw [h4, Bool.false_or, beq_iff_eq] at h
    rw [abundance_sum, h]; norm_num

/-- C60, violated for the six elements: the sums are 1.00003 (Ca), 0 (Tc), 0.99999 (Xe), 0 (Pm), 0.99988 (Ta) and 0.9999 (Hg). -/
theorem C60_fails :
    ((element U shippedTable 20).isotopes.map Isotope.abundance).sum = 1.00003 ∧
    ((element U shippedTable 43).isotopes.map Isotope.abundance).sum = 0 ∧
    ((element U shippedTable 54).isotopes.map Isotope.abundance).sum = 0.99999 ∧
    ((element U shippedTable 61).isotopes.map Isotope.abundance).sum = 0 ∧
    ((element U shippedTable 73).isotopes.map Isotope.abundance).sum = 0.99988 ∧
    ((element U shippedTable 80).isotopes.map Isotope.abundance).sum = 0.9999 := by
  obtain ⟨-, h1, h2, h3, h4, h5, h6⟩ := rawTotal_check
  simp only [abundance_sum, h1, h2, h3, h4, h5, h6]
  norm_num

/-- Xenon and its isotope 131 can be found in the shipped file. -/
example : ∃ c n, getNucleusByName U (some shippedTable) [] "Xe" = .ok (c, n) ∧ n.Z = some 54 :=
  let ⟨c, h⟩ := (C51_get_nucleus_by_name (U := U) (C51_shipped_table (U := U)).1 .start "Xe").1 54 (by norm_num) (by norm_num) rfl
  ⟨c, _, h, rfl⟩

end Obscura
