import Verif.Lemmas.NuclearText

/-!
# C86 — the nuclear data file as text

`fileOf` is what `Import_Nuclear_Data` sees of a text; `FileText t rows` (`Spec/NuclearText.lean`) says that the text `t` is the table `rows`
written down.
-/

namespace Obscura.NuclearText

open Spec Spec.NuclearText

/-- C86 (what is written is read). Whatever white space separates the items — also carriage returns alone, and also without a line end
at the end of the file — and however the numbers are written, exactly the rows of the table are read, in their order. -/
theorem C86_reads_the_table {t : List Char} {rows : List NuclearRow} (h : FileText t rows) : fileOf (some t) = some rows := by
  have := readRows_full (s := []) ends_nil (fun b hb => by rw [List.append_nil]; exact readRow_blank hb) h [] (t.length + 1)
    (by simp [Blank]) (by simp)
  simp only [List.nil_append, List.append_nil] at this
  simp [fileOf, parse, this]

/-- A small table in an unusual layout. -/
theorem sample_fileText : FileText "H 1 1\n+.5\t5e-1 0.5 -0\rHe\r\n2 3 1.37E-06 0.5 -0.081 0.552".toList
    [{ name := "H", Z := 1, A := 1, abundance := 0.5, spin := 0.5, sp := 0.5, sn := 0 },
     { name := "He", Z := 2, A := 3, abundance := 1.37e-6, spin := 0.5, sp := -0.081, sn := 0.552 }] := by
  have sep : ∀ c, IsBlank c → Separator [c] := fun c hc => ⟨by simp, fun x hx => by simp at hx; exact hx ▸ hc⟩
  have s1 := sep ' ' (by simp [IsBlank])
  have s2 := sep '\n' (by simp [IsBlank])
  have s3 := sep '\t' (by simp [IsBlank])
  have s4 := sep '\r' (by simp [IsBlank])
  have s5 : Separator ['\r', '\n'] := ⟨by simp, fun x hx => by simp at hx; rcases hx with rfl | rfl <;> simp [IsBlank]⟩
  have nb : Blank [] := by simp [Blank]
  have half : DecimalText ['0', '.', '5'] 0.5 := by
    have := DecimalText.mk (ds := [0]) .none (.point [5]) (.inl (by simp)) .none
    norm_num [number, Nat.ofDigits] at this
    norm_num
    exact this
  have row1 := RowText.mk (w := ['H']) ⟨by simp, by simp [IsBlank]⟩ s1 (Z := 1) (IntText.mk .none (ds := [1]) (by simp)) (by norm_num) s1
    (A := 1) (IntText.mk .none (ds := [1]) (by simp)) (by norm_num) s2
    (DecimalText.mk (ds := []) .plus (.point [5]) (.inr (by simp)) .none) s3
    (DecimalText.mk (ds := [5]) .none .none (.inl (by simp)) (.lower (IntText.mk .minus (ds := [1]) (by simp)))) s1 half s1
    (DecimalText.mk (ds := [0]) .minus .none (.inl (by simp)) .none)
  have row2 := RowText.mk (w := ['H', 'e']) ⟨by simp, by simp [IsBlank]⟩ s5 (Z := 2) (IntText.mk .none (ds := [2]) (by simp)) (by norm_num) s1
    (A := 3) (IntText.mk .none (ds := [3]) (by simp)) (by norm_num) s1
    (DecimalText.mk (ds := [1]) .none (.point [3, 7]) (.inl (by simp)) (.upper (IntText.mk .minus (ds := [0, 6]) (by simp)))) s1 half s1
    (DecimalText.mk (ds := [0]) .minus (.point [0, 8, 1]) (.inl (by simp)) .none) s1
    (DecimalText.mk (ds := [0]) .none (.point [5, 5, 2]) (.inl (by simp)) .none)
  have := FileText.row nb row1 s4 (FileText.last nb row2)
  norm_num [number, Nat.ofDigits] at this
  norm_num
  exact this

example : fileOf (some "H 1 1\n+.5\t5e-1 0.5 -0\rHe\r\n2 3 1.37E-06 0.5 -0.081 0.552".toList) =
    some [{ name := "H", Z := 1, A := 1, abundance := 0.5, spin := 0.5, sp := 0.5, sn := 0 },
     { name := "He", Z := 2, A := 3, abundance := 1.37e-6, spin := 0.5, sp := -0.081, sn := 0.552 }] :=
  C86_reads_the_table sample_fileText

/-- C86 (from the text to the lookups). When the file holds a complete table in any layout, `Get_Nucleus(Z)` gives the element with all
its isotopes as they are written in the file, at every moment of a run. -/
theorem C86_lookup (U : Units) {t : List Char} {rows : List NuclearRow} (h : FileText t rows) (hw : WellFormed rows) {c : List Nucleus}
    (hc : CacheReachable U (fileOf (some t)) c) (Z : ℕ) (h1 : 1 ≤ Z) (h2 : Z ≤ 92) :
    ∃ c' n, getNucleus U (fileOf (some t)) c Z = .ok (c', n) ∧ n.Z = some Z ∧
      n.isotopes = (rows.filter fun r => r.Z = Z).map (isotopeOf U) := by
  rw [C86_reads_the_table h] at hc ⊢
  obtain ⟨c', e⟩ := (C51_get_nucleus hw hc Z).1 ⟨h1, h2⟩
  exact ⟨c', _, e, rfl, rfl⟩

/-! ### Damaged files -/

/-- What is seen of a file that was cut off at any character: nothing, or the first rows, of which the last may differ in its last column. -/
theorem cut_rows {t : List Char} {rows : List NuclearRow} (h : FileText t rows) (n : ℕ) :
    fileOf (some (t.take n)) = some [] ∨
      ∃ k r l, rows[k]? = some r ∧ SameExceptLast r l ∧ fileOf (some (t.take n)) = some (rows.take k ++ [l]) := by
  obtain ⟨k, h1 | ⟨r, r', h1, h2, h3⟩⟩ := readRows_prefix h [] (t.take n) ((t.take n).length + 1) (by simp [Blank])
    (by simpa using List.take_prefix n t) (by simp)
  · have e : fileOf (some (t.take n)) = some (rows.take k) := by rw [← h1]; rfl
    rcases Nat.eq_zero_or_pos (min k rows.length) with h0 | h0
    · left
      rw [e]
      rcases Nat.min_eq_zero_iff.1 h0 with rfl | h0
      · simp
      · rw [List.length_eq_zero_iff.1 h0]; simp
    · right
      set j := min k rows.length - 1 with hj
      have hjl : j < rows.length := by have := min_le_right k rows.length; omega
      refine ⟨j, rows[j], rows[j], by simp [hjl], rfl, ?_⟩
      rw [e, List.take_append_getElem]
      congr 1
      rw [show j + 1 = min k rows.length by omega, List.take_eq_take_iff]
      simp
  · exact Or.inr ⟨k, r, r', h1, h2, by rw [← h3]; rfl⟩

/-- C86 (a file that ends too early). Let a file with a complete table be cut off at any character. The code takes what is left as the
table, without a message. Lighter elements than the last one left are looked up correctly; the lookup of a heavier element is undefined
behaviour, and so is every lookup when not even one row is left. -/
theorem C86_cut_file_partial (U : Units) {t : List Char} {rows : List NuclearRow} (h : FileText t rows) (hw : WellFormed rows) (n : ℕ) :
    ∃ rows', fileOf (some (t.take n)) = some rows' ∧
      (rows' = [] → ∀ Z, 1 ≤ Z → Z ≤ 92 → getNucleus U (fileOf (some (t.take n))) [] Z = .ub) ∧
      ∀ last, rows'.getLast? = some last →
        (∀ Z, 1 ≤ Z → Z < last.Z → ∃ c, getNucleus U (fileOf (some (t.take n))) [] Z = .ok (c, element U rows Z)) ∧
        ∀ Z, last.Z < Z → Z ≤ 92 → getNucleus U (fileOf (some (t.take n))) [] Z = .ub := by
  rcases cut_rows h n with e | ⟨k, r, l, hk, hl, e⟩
  · refine ⟨[], e, fun _ Z h1 h2 => ?_, by simp⟩
    rw [e]
    unfold getNucleus
    rw [if_neg (by omega)]
    simp [importNuclearData, importLoop, Nucleus.ofIsotopes, vecGet]
  · refine ⟨_, e, by simp, fun last hlast => ?_⟩
    simp only [List.getLast?_append, List.getLast?_singleton, Option.some_or, Option.some.injEq] at hlast
    subst hlast
    have hlZ : l.Z = r.Z := by rw [← hl]
    obtain ⟨hkl, hkr⟩ := List.getElem?_eq_some_iff.1 hk
    have hsplit : rows = rows.take k ++ r :: rows.drop (k + 1) := by
      rw [← hkr, List.getElem_cons_drop, List.take_append_drop]
    have hsort := hw.sorted
    rw [hsplit, List.pairwise_append, List.pairwise_cons] at hsort
    obtain ⟨s1, ⟨s2, s3⟩, s4⟩ := hsort
    have hrng := hw.range
    have hlr := hrng r (by rw [hsplit]; simp)
    have hmem : ∀ s ∈ rows.take k, s ∈ rows := fun s hs => List.mem_of_mem_take hs
    have hcomp : ∀ Z, 1 ≤ Z → Z ≤ l.Z → ∃ s ∈ rows.take k ++ [l], s.Z = Z := by
      intro Z h1 h2
      obtain ⟨s, hs, hsZ⟩ := hw.complete Z h1 (by omega)
      rw [hsplit] at hs
      rcases List.mem_append.1 hs with hs | hs
      · exact ⟨s, by simp [hs], hsZ⟩
      · refine ⟨l, by simp, ?_⟩
        rcases List.mem_cons.1 hs with rfl | hs
        · omega
        · have := s2 s hs; omega
    have himp : importNuclearData U (some (rows.take k ++ [l])) = .ok ((List.range' 1 l.Z).map (element U (rows.take k ++ [l]))) := by
      unfold importNuclearData
      simp only
      rw [importLoop_upto U l.Z (by omega) _ 1 [] []
        (List.pairwise_append.2 ⟨s1, by simp, fun a ha b hb => by
          simp only [List.mem_singleton] at hb; subst hb; rw [hlZ]; exact s4 a ha r (by simp)⟩)
        (fun s hs => by
          rcases List.mem_append.1 hs with hs | hs
          · exact ⟨(hrng s (hmem s hs)).1, by rw [hlZ]; exact s4 s hs r (by simp)⟩
          · simp only [List.mem_singleton] at hs; subst hs; omega)
        le_rfl (by omega) (fun Z h1 h2 => hcomp Z (by omega) h2) (by simp) (.inr (hcomp 1 le_rfl (by omega)))]
      congr 1
      have : l.Z = (l.Z - 1) + 1 := by omega
      conv_rhs => rw [this, List.range'_succ, List.map_cons]
      simp [element]
    refine ⟨fun Z h1 h2 => ⟨(List.range' 1 l.Z).map (element U (rows.take k ++ [l])), ?_⟩, fun Z h1 h2 => ?_⟩
    · rw [e]
      unfold getNucleus
      rw [if_neg (by omega)]
      simp only [List.length_nil, if_true, himp, Outcome.bind_ok]
      rw [vecGet_lt (by simp; omega)]
      simp only [List.getElem_map, List.getElem_range', Outcome.bind_ok]
      congr 2
      rw [show 1 + 1 * (Z - 1) = Z by omega]
      unfold element
      congr 2
      conv_rhs => rw [hsplit]
      rw [List.filter_append, List.filter_append]
      congr 1
      rw [List.filter_eq_nil_iff.2 (by simp; omega), List.filter_eq_nil_iff.2 ?_]
      intro s hs
      rcases List.mem_cons.1 hs with rfl | hs
      · simp; omega
      · have := s2 s hs; simp; omega
    · rw [e]
      unfold getNucleus
      rw [if_neg (by omega)]
      simp only [List.length_nil, if_true, himp, Outcome.bind_ok]
      rw [vecGet_ge (by simp; omega)]
      rfl

/-- C86 is false: a row whose second item is not a number hides all rows behind it, without a message. -/
theorem C86_fails_malformed_row {t c w c' : List Char} {rows : List NuclearRow} (h : FileText t rows) (hc : Separator c) (hw : Word w)
    (hc' : Separator c') (x : Char) (hx : ∀ d, x ≠ digit d) (hx' : x ≠ '+' ∧ x ≠ '-' ∧ ¬ IsBlank x) (anything : List Char) :
    fileOf (some (t ++ (c ++ (w ++ (c' ++ x :: anything))))) = some rows := by
  have hd : isDigit x = false := by
    by_contra hd
    have hd : isDigit x = true := by simpa using hd
    unfold isDigit at hd
    simp only [Bool.and_eq_true, decide_eq_true_eq] at hd
    refine hx ⟨x.toNat - 48, by omega⟩ ?_
    unfold digit
    simp only
    rw [show 48 + (x.toNat - 48) = x.toNat by omega, Char.ofNat_toNat]
  have hnone : ∀ b, Blank b → readRow (b ++ (c ++ (w ++ (c' ++ x :: anything)))) = none := by
    intro b hb
    have e := (reads_word hw).full (b ++ c) (c' ++ x :: anything) (blank_append hb hc.2) (ends_separator hc')
    rw [List.append_assoc] at e
    rw [readRow_eq, e]
    simp only [Option.bind_some]
    have e2 : readInt (c' ++ x :: anything) = none := by
      unfold readInt
      rw [skipSpace_append hc'.2, skipSpace_of_stops (fun y r hy => by
        cases hy; rw [← isSpace_iff] at hx'; simpa using hx'.2.2)]
      unfold readDigits
      rw [readSign_noSign (fun y r hy => by cases hy; exact ⟨hx'.2.1, hx'.1⟩)]
      simp [hd]
    rw [e2]; rfl
  have := readRows_full (ends_separator hc) hnone h [] ((t ++ (c ++ (w ++ (c' ++ x :: anything)))).length + 1) (by simp [Blank]) (by simp)
  simp only [List.nil_append] at this
  simp only [fileOf, Option.map_some, parse, this]

/-- Non-vacuity: a table with a misplaced comment keeps only what stands before it. -/
example (rest : List Char) : ∃ rows, rows.length = 2 ∧
    fileOf (some ("H 1 1\n+.5\t5e-1 0.5 -0\rHe\r\n2 3 1.37E-06 0.5 -0.081 0.552".toList ++ (['\n'] ++ (['#'] ++ ([' '] ++ 't' :: rest))))) =
      some rows :=
  ⟨_, rfl, C86_fails_malformed_row sample_fileText ⟨by simp, by simp [Blank, IsBlank]⟩ ⟨by simp, by simp [IsBlank]⟩
    ⟨by simp, by simp [Blank, IsBlank]⟩ 't' (by decide) ⟨by decide, by decide, by simp [IsBlank]⟩ rest⟩

/-! ### The shipped file -/

/-- The lines of the shipped file, with the rows they should give. -/
def shippedPairs : List (String × RawRow) := shippedLines.zip shippedRows

theorem pairs_length : shippedLines.length = 295 ∧ shippedRows.length = 295 := by decide +kernel
theorem pairs_0 : (shippedPairs.take 50).all (lineOk ['\r']) = true := by decide +kernel
theorem pairs_1 : ((shippedPairs.drop 50).take 50).all (lineOk ['\r']) = true := by decide +kernel
theorem pairs_2 : ((shippedPairs.drop 100).take 50).all (lineOk ['\r']) = true := by decide +kernel
theorem pairs_3 : ((shippedPairs.drop 150).take 50).all (lineOk ['\r']) = true := by decide +kernel
theorem pairs_4 : ((shippedPairs.drop 200).take 50).all (lineOk ['\r']) = true := by decide +kernel
theorem pairs_5 : ((shippedPairs.drop 250).take 44).all (lineOk ['\r']) = true := by decide +kernel
theorem pairs_6 : (shippedPairs.drop 294).all (lineOk []) = true := by decide +kernel

theorem all_chunk {α : Type} {l : List α} {p : α → Bool} {a b c : ℕ} (h1 : (l.take a).all p = true)
    (h2 : ((l.drop a).take b).all p = true) (hc : a + b = c) : (l.take c).all p = true := by
  rw [← hc, List.take_add, List.all_append, h1, h2]; rfl

theorem read_lines {lines : List String} {raws : List RawRow} {n : ℕ} (h1 : lines.length = n + 1) (h2 : raws.length = n + 1)
    (h : ((lines.zip raws).take n).all (lineOk ['\r']) = true) (h6 : ((lines.zip raws).drop n).all (lineOk []) = true) :
    (parse (lines.flatMap String.toList)).map Row.toNuclearRow = raws.map RawRow.toRow := by
  have hlen : (lines.zip raws).length = n + 1 := by rw [List.length_zip, h1, h2]; simp
  have hfst : (lines.zip raws).map Prod.fst = lines := List.map_fst_zip (by omega)
  have hsnd : (lines.zip raws).map Prod.snd = raws := List.map_snd_zip (by omega)
  generalize lines.zip raws = pairs at *
  obtain ⟨last, hlast⟩ : ∃ last, pairs.drop n = [last] :=
    List.length_eq_one_iff.1 (by rw [List.length_drop, hlen]; omega)
  rw [hlast] at h6
  have hsplit : pairs = pairs.take n ++ [last] := by rw [← hlast, List.take_append_drop]
  have hl : n + 1 ≤ (lines.flatMap String.toList).length := by
    have : ∀ L : List String, (∀ s ∈ L, 1 ≤ s.toList.length) → L.length ≤ (L.flatMap String.toList).length := by
      intro L hL
      induction L with
      | nil => simp
      | cons a L ih =>
        have h1 := hL a (by simp)
        have h2 := ih fun s hs => hL s (by simp [hs])
        simp only [List.flatMap_cons, List.length_append, List.length_cons]
        omega
    have h2 := this lines ?_
    · omega
    · intro s hs
      by_contra hc
      have hs0 : s.toList = [] := List.length_eq_zero_iff.1 (by omega)
      rw [← hfst] at hs
      obtain ⟨x, hx, rfl⟩ := List.mem_map.1 hs
      rw [hsplit] at hx
      have hbad : ∀ r, lineOk r x = false := fun r => by unfold lineOk; rw [hs0]; rfl
      rcases List.mem_append.1 hx with hx | hx
      · have := List.all_eq_true.1 h x hx
        rw [hbad] at this; cases this
      · simp only [List.mem_singleton] at hx; subst hx
        simp [hbad] at h6
  have := readRows_lines (pairs.take n) last [] ((lines.flatMap String.toList).length + 1) (fun x hx => List.all_eq_true.1 h x hx)
    (by simpa using h6) (by simp [Blank]) (by rw [List.length_take, hlen]; omega)
  rw [← hsplit, hfst, hsnd] at this
  exact this

/-- C86 (the file that comes with the library). The text of `data/Nuclear_Data.txt`, whose lines end with carriage returns, is read as the
table `shippedTable` about which C51 and C60 speak. -/
theorem C86_shipped_file : fileOf (some shippedText) = some shippedTable := by
  have h := all_chunk (all_chunk (all_chunk (all_chunk (all_chunk pairs_0 pairs_1 rfl) pairs_2 rfl) pairs_3 rfl) pairs_4 rfl) pairs_5 rfl
  have := read_lines pairs_length.1 pairs_length.2 h pairs_6
  unfold fileOf shippedText shippedTable
  rw [Option.map_some, this]

/-- The rows left of the shipped file when it is cut off in the third line, behind `0.5`. -/
def cutRows : List RawRow := [⟨"H", 1, 1, 99985000, 1, 5000, 0⟩, ⟨"H", 1, 2, 15000, 2, 0, 0⟩, ⟨"He", 2, 3, 137, 1, -810, 5000⟩]

theorem cut_check : (parse (shippedText.take 74)).length = 3 ∧ (((parse (shippedText.take 74)).zip cutRows).all fun x => x.1.same x.2) = true := by
  decide +kernel

/-- C86 is false: when the shipped file is cut off inside a number, the number is read as far as it goes. Helium-3 then has a neutron spin
of 0.5 instead of 0.552, and nothing is reported. -/
theorem C86_fails_cut_number : ∃ n rows, fileOf (some (shippedText.take n)) = some rows ∧
    (∃ r ∈ rows, r.Z = 2 ∧ r.A = 3 ∧ r.sn = 0.5) ∧ ∃ r ∈ shippedTable, r.Z = 2 ∧ r.A = 3 ∧ r.sn = 0.552 := by
  obtain ⟨h1, h2⟩ := cut_check
  refine ⟨74, (parse (shippedText.take 74)).map Row.toNuclearRow, rfl, ?_, ?_⟩
  · generalize parse (shippedText.take 74) = rows at h1 h2
    obtain ⟨a, b, c, rfl⟩ := List.length_eq_three.1 h1
    simp only [cutRows, List.zip_cons_cons, List.zip_nil_left, List.all_cons, List.all_nil, Bool.and_true, Bool.and_eq_true] at h2
    have hc := Row.toNuclearRow_of_same h2.2.2
    refine ⟨c.toNuclearRow, by simp, ?_⟩
    rw [hc]
    norm_num [RawRow.toRow]
  · refine ⟨RawRow.toRow ⟨"He", 2, 3, 137, 1, -810, 5520⟩, List.mem_map.2 ⟨_, ?_, rfl⟩, ?_⟩
    · exact List.mem_of_getElem? (i := 2) rfl
    · norm_num [RawRow.toRow]

/-- The hypotheses of `C86_lookup` and `C86_cut_file_partial` hold for a file with one row for every element. -/
example : ∃ t rows, FileText t rows ∧ WellFormed rows := by
  have key : ∀ n : ℕ, n ≤ 92 → ∃ t rows, FileText t rows ∧ rows.map NuclearRow.Z = (List.range' (93 - n) n) := by
    intro n hn
    induction n with
    | zero => exact ⟨[], [], .empty (by simp [Blank]), by simp⟩
    | succ n ih =>
      obtain ⟨t, rows, h1, h2⟩ := ih (by omega)
      have s1 : Separator [' '] := ⟨by simp, by simp [Blank, IsBlank]⟩
      have one : DecimalText _ _ := DecimalText.mk (ds := [1]) .none .none (.inl (by simp)) .none
      have hz : ∃ ds : List (Fin 10), ds ≠ [] ∧ number ds = 92 - n := by
        refine ⟨[⟨(92 - n) / 10, by omega⟩, ⟨(92 - n) % 10, by omega⟩], by simp, ?_⟩
        simp [number, Nat.ofDigits]
        omega
      obtain ⟨ds, hds, hnum⟩ := hz
      have hZ : IntText (digits ds) ((92 - n : ℕ) : ℤ) := by
        have := IntText.mk .none hds
        rw [hnum] at this
        simpa using this
      have row := RowText.mk (w := ['X']) ⟨by simp, by simp [IsBlank]⟩ s1 hZ (by omega) s1 hZ (by omega) s1 one s1 one s1 one s1 one
      refine ⟨_, _, FileText.row (b := []) (by simp [Blank]) row s1 h1, ?_⟩
      rw [List.map_cons, h2, List.range'_succ]
      simp only
      rw [show 93 - (n + 1) = 92 - n by omega, show 92 - n + 1 = 93 - n by omega]
  obtain ⟨t, rows, h1, h2⟩ := key 92 le_rfl
  have hm : ∀ r ∈ rows, r.Z ∈ List.range' 1 92 := fun r hr => by
    have := List.mem_map_of_mem (f := NuclearRow.Z) hr
    rw [h2] at this; exact this
  refine ⟨t, rows, h1, ?_, fun r hr => ?_, fun Z h3 h4 => ?_⟩
  · have : (rows.map NuclearRow.Z).Pairwise (· ≤ ·) := by
      rw [h2]; exact (List.pairwise_le_range' (s := 1) (n := 92))
    rwa [List.pairwise_map] at this
  · have := List.mem_range'_1.1 (hm r hr); omega
  · have : Z ∈ rows.map NuclearRow.Z := by rw [h2]; exact List.mem_range'_1.2 (by omega)
    obtain ⟨r, hr, e⟩ := List.mem_map.1 this
    exact ⟨r, hr, e⟩

end Obscura.NuclearText
