import Verif.Model.NuclearText
import Verif.Spec.NuclearText
import Verif.Props.NuclearData
import Mathlib.Tactic

/-!
# Lemmas on reading the text of the nuclear data file
-/

namespace Obscura.NuclearText

open Spec.NuclearText

theorem isSpace_iff (c : Char) : isSpace c = true ↔ IsBlank c := by
  unfold isSpace IsBlank
  simp only [Bool.or_eq_true, beq_iff_eq, Bool.and_eq_true, decide_eq_true_eq]
  constructor
  · rintro (h | ⟨h1, h2⟩)
    · exact Or.inl h
    · have : c = Char.ofNat c.toNat := (Char.ofNat_toNat c).symm
      rw [this]
      generalize c.toNat = n at *
      interval_cases n <;> decide
  · rintro (rfl | rfl | rfl | rfl | rfl | rfl) <;> decide

theorem isDigit_digit (d : Fin 10) : isDigit (digit d) = true := by revert d; decide
theorem isSpace_digit (d : Fin 10) : isSpace (digit d) = false := by revert d; decide
theorem digit_toNat (d : Fin 10) : (digit d).toNat - 48 = d := by revert d; decide
theorem digit_ne (d : Fin 10) : digit d ≠ '-' ∧ digit d ≠ '+' ∧ digit d ≠ '.' ∧ digit d ≠ 'e' ∧ digit d ≠ 'E' := by revert d; decide

theorem prefix_append_cases {p a b : List Char} (h : p <+: a ++ b) : p <+: a ∨ ∃ p', p = a ++ p' ∧ p' <+: b := by
  rcases List.prefix_or_prefix_of_prefix h (List.prefix_append a b) with h' | ⟨q, rfl⟩
  · exact Or.inl h'
  · exact Or.inr ⟨q, rfl, (List.prefix_append_right_inj a).1 h⟩

/-- The text goes on with something that does not satisfy `p`. -/
def Stops (p : Char → Bool) (s : List Char) : Prop := ∀ c r, s = c :: r → p c = false

theorem takeWhile_stop {p : Char → Bool} {l s : List Char} (hl : ∀ c ∈ l, p c = true) (hs : Stops p s) :
    (l ++ s).takeWhile p = l ∧ (l ++ s).dropWhile p = s := by
  induction l with
  | nil =>
    cases s with
    | nil => simp
    | cons c r => simp [hs c r rfl]
  | cons c l ih =>
    have := ih (fun x hx => hl x (List.mem_cons_of_mem _ hx))
    simp [hl c (by simp), this]

theorem stops_nil (p : Char → Bool) : Stops p [] := fun _ _ h => by cases h

theorem takeWhile_all {p : Char → Bool} {l : List Char} (hl : ∀ c ∈ l, p c = true) :
    l.takeWhile p = l ∧ l.dropWhile p = [] := by
  have := takeWhile_stop hl (stops_nil p)
  simpa using this

theorem skipSpace_append {b s : List Char} (hb : Blank b) : skipSpace (b ++ s) = skipSpace s := by
  unfold skipSpace
  induction b with
  | nil => rfl
  | cons c b ih =>
    have hc : isSpace c = true := (isSpace_iff c).2 (hb c (by simp))
    simp [hc, ih (fun x hx => hb x (List.mem_cons_of_mem _ hx))]

theorem skipSpace_blank {b : List Char} (hb : Blank b) : skipSpace b = [] := by
  have := skipSpace_append (s := []) hb
  simpa [skipSpace] using this

theorem skipSpace_of_stops {s : List Char} (hs : Stops isSpace s) : skipSpace s = s := by
  cases s with
  | nil => rfl
  | cons c r => simp [skipSpace, hs c r rfl]

/-- The text is at its end or goes on with white space. -/
def Ends (s : List Char) : Prop := ∀ c r, s = c :: r → IsBlank c

theorem ends_nil : Ends [] := fun _ _ h => by cases h

theorem Ends.of_prefix {p s : List Char} (hs : Ends s) (h : p <+: s) : Ends p := by
  rintro c r rfl
  obtain ⟨t, rfl⟩ := h
  exact hs c (r ++ t) rfl

theorem ends_separator {b s : List Char} (hb : Separator b) : Ends (b ++ s) := by
  rintro c r h
  obtain ⟨x, l, rfl⟩ := List.exists_cons_of_ne_nil hb.1
  simp only [List.cons_append, List.cons.injEq] at h
  exact h.1 ▸ hb.2 x (by simp)

theorem Ends.stops {s : List Char} (hs : Ends s) {p : Char → Bool} (hp : ∀ c, IsBlank c → p c = false) : Stops p s :=
  fun c r h => hp c (hs c r h)

theorem blank_not_digit (c : Char) (h : IsBlank c) : isDigit c = false := by
  rcases h with rfl | rfl | rfl | rfl | rfl | rfl <;> decide

theorem blank_ne {c : Char} (h : IsBlank c) : c ≠ '.' ∧ c ≠ 'e' ∧ c ≠ 'E' := by
  rcases h with rfl | rfl | rfl | rfl | rfl | rfl <;> decide

theorem digits_all (ds : List (Fin 10)) : ∀ c ∈ digits ds, isDigit c = true := by
  intro c hc
  obtain ⟨d, -, rfl⟩ := List.mem_map.1 hc
  exact isDigit_digit d

theorem prefix_digits {p : List Char} {ds : List (Fin 10)} (h : p <+: digits ds) : ∀ c ∈ p, isDigit c = true :=
  fun c hc => digits_all ds c (h.subset hc)

theorem natOf_digits (ds : List (Fin 10)) : natOf (digits ds) = number ds := by
  induction ds using List.reverseRecOn with
  | nil => rfl
  | append_singleton l d ih =>
    have e : natOf (digits (l ++ [d])) = 10 * natOf (digits l) + ((digit d).toNat - 48) := by
      simp [natOf, digits]
    rw [e, ih, digit_toNat]
    simp [number, Nat.ofDigits_cons]
    ring

theorem number_append (ds fs : List (Fin 10)) : number (ds ++ fs) = number ds * 10 ^ fs.length + number fs := by
  unfold number
  rw [List.reverse_append, List.map_append, Nat.ofDigits_append]
  simp
  ring

/-! ### Signs and integers -/

/-- Whether a sign is a minus. -/
def negOf (σ : List Char) : Bool := σ == ['-']

/-- A text that does not start with a sign. -/
def NoSign (s : List Char) : Prop := ∀ c r, s = c :: r → c ≠ '-' ∧ c ≠ '+'

theorem readSign_noSign {s : List Char} (h : NoSign s) : readSign s = (false, s) := by
  cases s with
  | nil => rfl
  | cons c r =>
    have := h c r rfl
    unfold readSign
    split
    · next h' => cases h'; exact absurd rfl this.1
    · next h' => cases h'; exact absurd rfl this.2
    · rfl

theorem readSign_text {σ s : List Char} {k : ℤ} (hσ : SignText σ k) (hs : NoSign s) : readSign (σ ++ s) = (negOf σ, s) := by
  cases hσ with
  | none => exact readSign_noSign hs
  | plus => rfl
  | minus => rfl

theorem readSign_cut {σ s p : List Char} {k : ℤ} (hσ : SignText σ k) (hs : NoSign s) (h : p <+: σ ++ s) :
    (∃ b, readSign p = (b, [])) ∨ ∃ p', p' <+: s ∧ p = σ ++ p' ∧ readSign p = (negOf σ, p') := by
  have hrest : ∀ p', p' <+: s → NoSign p' := by
    rintro p' ⟨t, rfl⟩ c r rfl
    exact hs c (r ++ t) rfl
  rcases prefix_append_cases h with h | ⟨p', rfl, h2⟩
  · cases hσ with
    | none => rw [List.prefix_nil.1 h]; exact Or.inl ⟨_, rfl⟩
    | plus =>
      rcases List.prefix_cons_iff.1 h with rfl | ⟨t, rfl, ht⟩
      · exact Or.inl ⟨_, rfl⟩
      · rw [List.prefix_nil.1 ht]; exact Or.inl ⟨_, rfl⟩
    | minus =>
      rcases List.prefix_cons_iff.1 h with rfl | ⟨t, rfl, ht⟩
      · exact Or.inl ⟨_, rfl⟩
      · rw [List.prefix_nil.1 ht]; exact Or.inl ⟨_, rfl⟩
  · exact Or.inr ⟨p', h2, rfl, readSign_text hσ (hrest p' h2)⟩

theorem noSign_digits {ds : List (Fin 10)} {s : List Char} (hs : NoSign s) : NoSign (digits ds ++ s) := by
  rintro c r h
  cases ds with
  | nil => exact hs c r h
  | cons d ds =>
    simp only [digits, List.map_cons, List.cons_append, List.cons.injEq] at h
    exact h.1 ▸ ⟨(digit_ne d).1, (digit_ne d).2.1⟩

theorem noSign_nil : NoSign [] := fun _ _ h => by cases h

theorem signed_negOf {σ : List Char} {k : ℤ} (hσ : SignText σ k) (n : ℤ) : signed (negOf σ) n = k * n := by
  cases hσ <;> simp [signed, negOf]

theorem readDigits_full {t s : List Char} {n : ℤ} (ht : IntText t n) (hs : Stops isDigit s) (hs' : NoSign s) :
    readDigits (t ++ s) = some (n, s) := by
  obtain ⟨hσ, hds⟩ := ht
  rename_i σ k ds
  unfold readDigits
  rw [List.append_assoc, readSign_text hσ (noSign_digits hs')]
  have := takeWhile_stop (digits_all ds) hs
  simp only [this.1, this.2]
  rw [if_neg (by simpa [digits] using hds), natOf_digits, signed_negOf hσ]

theorem readDigits_cut {t p : List Char} {n : ℤ} (ht : IntText t n) (h : p <+: t) :
    readDigits p = none ∨ ∃ m, readDigits p = some (m, []) := by
  obtain ⟨hσ, hds⟩ := ht
  rename_i σ k ds
  unfold readDigits
  rcases readSign_cut hσ (by simpa using noSign_digits (ds := ds) noSign_nil) h with ⟨b, e⟩ | ⟨p', hp', -, e⟩
  · left; simp [e]
  · have := takeWhile_all (prefix_digits hp')
    simp only [e, this.1, this.2]
    by_cases hp : p' = []
    · left; simp [hp]
    · right; exact ⟨_, by rw [if_neg hp]⟩

/-- The first character of a number or a name is not white space. -/
theorem stops_int {t s : List Char} {n : ℤ} (ht : IntText t n) : Stops isSpace (t ++ s) := by
  obtain ⟨hσ, hds⟩ := ht
  rename_i σ k ds
  obtain ⟨d, l, rfl⟩ := List.exists_cons_of_ne_nil hds
  rintro c r h
  cases hσ <;> simp [digits] at h <;> rcases h with ⟨rfl, -⟩
  · exact isSpace_digit d
  · decide
  · decide

/-- How an item of the file is read: in full, when what follows is the end or white space; and when the text ends inside it. -/
structure Reads {α : Type} (R : List Char → Option (α × List Char)) (lex : List Char) (v : α) : Prop where
  full : ∀ b s, Blank b → Ends s → R (b ++ (lex ++ s)) = some (v, s)
  cut : ∀ b p, Blank b → p <+: lex → R (b ++ p) = none ∨ ∃ v', R (b ++ p) = some (v', [])
  empty : ∀ b, Blank b → R b = none

theorem stops_prefix {q : Char → Bool} {p s : List Char} (h : p <+: s) (hs : Stops q s) : Stops q p := by
  rintro c r rfl
  obtain ⟨t, rfl⟩ := h
  exact hs c (r ++ t) rfl

theorem Ends.noSign {s : List Char} (hs : Ends s) : NoSign s := fun c r h => by
  rcases hs c r h with rfl | rfl | rfl | rfl | rfl | rfl <;> decide

theorem reads_word {w : List Char} (hw : Word w) : Reads readWord w w := by
  have hall : ∀ c ∈ w, (!isSpace c) = true := fun c hc => by
    have := hw.2 c hc
    rw [← isSpace_iff] at this
    simpa using this
  have hskip : ∀ p s, p <+: w → p ≠ [] → Stops isSpace (p ++ s) := by
    intro p s hp hne c r h
    obtain ⟨x, l, rfl⟩ := List.exists_cons_of_ne_nil hne
    simp only [List.cons_append, List.cons.injEq] at h
    have := hall x (hp.subset (by simp))
    rw [← h.1]; simpa using this
  refine ⟨fun b s hb hs => ?_, fun b p hb hp => ?_, fun b hb => ?_⟩
  · unfold readWord
    rw [skipSpace_append hb, skipSpace_of_stops (hskip w s List.prefix_rfl hw.1)]
    have := takeWhile_stop hall (hs.stops (p := (!isSpace ·)) fun c hc => by simp [(isSpace_iff c).2 hc])
    simp only [this.1, this.2, if_neg hw.1]
  · unfold readWord
    rw [skipSpace_append hb]
    by_cases hne : p = []
    · left; simp [hne, skipSpace]
    · right
      have h1 := hskip p [] hp hne
      rw [List.append_nil] at h1
      have := takeWhile_all (fun c hc => hall c (hp.subset hc) : ∀ c ∈ p, (!isSpace c) = true)
      rw [skipSpace_of_stops h1]
      exact ⟨p, by simp only [this.1, this.2, if_neg hne]⟩
  · unfold readWord; simp [skipSpace_blank hb]

theorem reads_int {t : List Char} {n : ℕ} (ht : IntText t n) (hn : n < 2 ^ 31) : Reads readInt t (n : ℤ) := by
  refine ⟨fun b s hb hs => ?_, fun b p hb hp => ?_, fun b hb => ?_⟩
  · unfold readInt
    rw [skipSpace_append hb, skipSpace_of_stops (stops_int ht), readDigits_full ht (hs.stops blank_not_digit) hs.noSign]
    have : (n : ℤ) < 2 ^ 31 := by exact_mod_cast hn
    simp only
    rw [if_pos ⟨by linarith [show (0 : ℤ) ≤ n from Int.natCast_nonneg n], this⟩]
  · unfold readInt
    rw [skipSpace_append hb]
    have h1 : Stops isSpace p := stops_prefix hp (by simpa using stops_int (s := []) ht)
    rw [skipSpace_of_stops h1]
    rcases readDigits_cut ht hp with h | ⟨m, h⟩
    · left; rw [h]
    · rw [h]; simp only
      by_cases hm : -2 ^ 31 ≤ m ∧ m < 2 ^ 31
      · right; exact ⟨m, if_pos hm⟩
      · left; exact if_neg hm
  · unfold readInt; simp [skipSpace_blank hb, readDigits, readSign]

/-! ### Decimal numbers -/

theorem readFraction_other {s : List Char} (h : ∀ c r, s = c :: r → c ≠ '.') : readFraction s = ([], s) := by
  unfold readFraction
  split
  · exact absurd rfl (h _ _ rfl)
  · rfl

theorem readExponent_other {s : List Char} (h : ∀ c r, s = c :: r → c ≠ 'e' ∧ c ≠ 'E') : readExponent s = some (0, s) := by
  unfold readExponent
  split
  · exact absurd rfl (h _ _ rfl).1
  · exact absurd rfl (h _ _ rfl).2
  · rfl

theorem readExponent_full {ε s : List Char} {e : ℤ} (hε : ExponentText ε e) (hs : Ends s) : readExponent (ε ++ s) = some (e, s) := by
  cases hε with
  | none => exact readExponent_other fun c r h => (blank_ne (hs c r h)).2
  | lower h => exact readDigits_full h (hs.stops blank_not_digit) hs.noSign
  | upper h => exact readDigits_full h (hs.stops blank_not_digit) hs.noSign

theorem readExponent_cut {ε p : List Char} {e : ℤ} (hε : ExponentText ε e) (h : p <+: ε) :
    readExponent p = none ∨ ∃ m, readExponent p = some (m, []) := by
  cases hε with
  | none => rw [List.prefix_nil.1 h]; exact Or.inr ⟨0, rfl⟩
  | lower hi =>
    rcases List.prefix_cons_iff.1 h with rfl | ⟨t, rfl, ht⟩
    · exact Or.inr ⟨0, rfl⟩
    · exact readDigits_cut hi ht
  | upper hi =>
    rcases List.prefix_cons_iff.1 h with rfl | ⟨t, rfl, ht⟩
    · exact Or.inr ⟨0, rfl⟩
    · exact readDigits_cut hi ht

/-- Neither a digit nor a sign nor a point. -/
def Plain (s : List Char) : Prop := ∀ c r, s = c :: r → isDigit c = false ∧ (c ≠ '-' ∧ c ≠ '+') ∧ c ≠ '.' ∧ isSpace c = isSpace c

theorem plain_exponent {ε s : List Char} {e : ℤ} (hε : ExponentText ε e) (hs : Ends s) : Plain (ε ++ s) := by
  rintro c r h
  cases hε with
  | none =>
    have := hs c r h
    exact ⟨blank_not_digit c this, (hs.noSign c r h), (blank_ne this).1, rfl⟩
  | lower => cases h; decide
  | upper => cases h; decide

theorem Plain.of_prefix {p s : List Char} (hs : Plain s) (h : p <+: s) : Plain p := by
  rintro c r rfl
  obtain ⟨t, rfl⟩ := h
  exact hs c (r ++ t) rfl

theorem readFraction_full {φ s : List Char} {fs : List (Fin 10)} (hφ : FractionText φ fs) (hs : Plain s) :
    readFraction (φ ++ s) = (digits fs, s) := by
  cases hφ with
  | none => exact readFraction_other fun c r h => (hs c r h).2.2.1
  | point =>
    have := takeWhile_stop (digits_all fs) (s := s) fun c r h => (hs c r h).1
    show (List.takeWhile isDigit (digits fs ++ s), List.dropWhile isDigit (digits fs ++ s)) = _
    rw [this.1, this.2]

theorem readFraction_cut {φ s p : List Char} {fs : List (Fin 10)} (hφ : FractionText φ fs) (hs : Plain s) (h : p <+: φ ++ s) :
    (∃ l, readFraction p = (l, [])) ∨ ∃ p', p' <+: s ∧ p = φ ++ p' ∧ readFraction p = (digits fs, p') := by
  rcases prefix_append_cases h with h | ⟨p', rfl, h2⟩
  · left
    cases hφ with
    | none => rw [List.prefix_nil.1 h]; exact ⟨_, rfl⟩
    | point =>
      rcases List.prefix_cons_iff.1 h with rfl | ⟨t, rfl, ht⟩
      · exact ⟨_, rfl⟩
      · have := takeWhile_all (prefix_digits ht)
        exact ⟨t, by show (_, _) = _; rw [this.1, this.2]⟩
  · exact Or.inr ⟨p', h2, rfl, readFraction_full hφ (hs.of_prefix h2)⟩

theorem stops_fraction {φ s : List Char} {fs : List (Fin 10)} (hφ : FractionText φ fs) (hs : Plain s) :
    Stops isDigit (φ ++ s) ∧ NoSign (φ ++ s) := by
  cases hφ with
  | none => exact ⟨fun c r h => (hs c r h).1, fun c r h => (hs c r h).2.1⟩
  | point =>
    refine ⟨fun c r h => ?_, fun c r h => ?_⟩ <;> (simp only [List.cons_append, List.cons.injEq] at h; rw [← h.1]; decide)

theorem stops_decimal {σ φ s : List Char} {k : ℤ} {ds fs : List (Fin 10)} (hσ : SignText σ k) (hφ : FractionText φ fs)
    (hd : ds ≠ [] ∨ fs ≠ []) : Stops isSpace (σ ++ (digits ds ++ (φ ++ s))) := by
  rintro c r h
  cases hσ with
  | plus => simp only [List.cons_append, List.cons.injEq] at h; rw [← h.1]; decide
  | minus => simp only [List.cons_append, List.cons.injEq] at h; rw [← h.1]; decide
  | none =>
    cases ds with
    | cons d ds =>
      simp only [digits, List.map_cons, List.nil_append, List.cons_append, List.cons.injEq] at h
      rw [← h.1]; exact isSpace_digit d
    | nil =>
      cases hφ with
      | none => simp at hd
      | point =>
        simp only [digits, List.map_nil, List.nil_append, List.cons_append, List.cons.injEq] at h
        rw [← h.1]; decide

theorem reads_double {t : List Char} {x : ℝ} (ht : DecimalText t x) : ∃ d : Decimal, d.value = x ∧ Reads readDouble t d := by
  obtain ⟨hσ, hφ, hd, hε⟩ := ht
  rename_i σ k ds φ fs ε e
  refine ⟨⟨k * number (ds ++ fs), e - fs.length⟩, ?_, fun b s hb hs => ?_, fun b p hb hp => ?_, fun b hb => ?_⟩
  · unfold Decimal.value
    rw [number_append, zpow_sub₀ (by norm_num : (10 : ℝ) ≠ 0), zpow_natCast]
    push_cast
    field_simp
  · have hpl := plain_exponent hε hs
    have hst := stops_fraction hφ hpl
    unfold readDouble
    rw [show σ ++ (digits ds ++ (φ ++ ε)) ++ s = σ ++ (digits ds ++ (φ ++ (ε ++ s))) by simp only [List.append_assoc],
      skipSpace_append hb, skipSpace_of_stops (stops_decimal hσ hφ hd), readSign_text hσ (noSign_digits hst.2)]
    have := takeWhile_stop (digits_all ds) hst.1
    simp only [this.1, this.2, readFraction_full hφ hpl, readExponent_full hε hs]
    rw [if_neg (by rcases hd with h | h <;> simp [digits, h])]
    rw [show digits ds ++ digits fs = digits (ds ++ fs) by simp [digits], natOf_digits, signed_negOf hσ]
    simp [digits]
  · have hpl : Plain ε := by simpa using plain_exponent hε ends_nil
    have hst := stops_fraction hφ hpl
    unfold readDouble
    rw [skipSpace_append hb, skipSpace_of_stops (stops_prefix hp (stops_decimal hσ hφ hd))]
    rcases readSign_cut hσ (noSign_digits hst.2) hp with ⟨b', e1⟩ | ⟨p1, hp1, -, e1⟩
    · left; simp [e1, readFraction]
    · rcases prefix_append_cases hp1 with h2 | ⟨p2, rfl, h2⟩
      · have := takeWhile_all (prefix_digits h2)
        simp only [e1, this.1, this.2]
        by_cases hn : p1 = []
        · left; simp [hn, readFraction]
        · right; exact ⟨_, by simp only [readFraction, readExponent]; rw [if_neg (by simp [hn])]⟩
      · have := takeWhile_stop (digits_all ds) (stops_prefix h2 hst.1)
        simp only [e1, this.1, this.2]
        rcases readFraction_cut hφ hpl h2 with ⟨l, e3⟩ | ⟨p3, hp3, -, e3⟩
        · simp only [e3, readExponent]
          split_ifs
          · exact Or.inl rfl
          · exact Or.inr ⟨_, rfl⟩
        · simp only [e3]
          split_ifs
          · exact Or.inl rfl
          · rcases readExponent_cut hε hp3 with h4 | ⟨m, h4⟩
            · left; simp [h4]
            · right; exact ⟨_, by rw [h4]⟩
  · unfold readDouble; simp [skipSpace_blank hb, readSign, readFraction]

/-! ### Rows -/

/-- The three ways in which an item is read from the beginning of a text. -/
theorem Reads.prefix {α : Type} {R : List Char → Option (α × List Char)} {lex : List Char} {v : α} (h : Reads R lex v)
    {b s p : List Char} (hb : Blank b) (hs : Ends s) (hp : p <+: b ++ (lex ++ s)) :
    R p = none ∨ (∃ v', R p = some (v', [])) ∨ ∃ p', p' <+: s ∧ p.length = b.length + lex.length + p'.length ∧ R p = some (v, p') := by
  rcases prefix_append_cases hp with h1 | ⟨p1, rfl, h1⟩
  · left; exact h.empty p fun c hc => hb c (h1.subset hc)
  · rcases prefix_append_cases h1 with h2 | ⟨p2, rfl, h2⟩
    · rcases h.cut b p1 hb h2 with h3 | h3
      · exact Or.inl h3
      · exact Or.inr (Or.inl h3)
    · exact Or.inr (Or.inr ⟨p2, h2, by simp [add_assoc], h.full b p2 hb (hs.of_prefix h2)⟩)

theorem readRow_eq (s : List Char) : readRow s =
    (readWord s).bind fun (name, s) => (readInt s).bind fun (Z, s) => (readInt s).bind fun (A, s) =>
    (readDouble s).bind fun (a, s) => (readDouble s).bind fun (x, s) => (readDouble s).bind fun (p, s) =>
    (readDouble s).bind fun (n, s) => some (⟨name, Z, A, a, x, p, n⟩, s) := rfl

theorem readInt_nil : readInt [] = none := rfl
theorem readDouble_nil : readDouble [] = none := rfl

/-- A row in the text and the row that is read. -/
theorem readRow_text {t : List Char} {r : NuclearRow} (ht : RowText t r) :
    ∃ row : Row, row.toNuclearRow = r ∧ (∀ b s, Blank b → Ends s → readRow (b ++ (t ++ s)) = some (row, s)) ∧
      ∀ b s p, Blank b → Ends s → p <+: b ++ (t ++ s) →
        readRow p = none ∨ (∃ row' : Row, SameExceptLast r row'.toNuclearRow ∧ readRow p = some (row', [])) ∨
          ∃ p', p' <+: s ∧ p'.length < p.length ∧ readRow p = some (row, p') := by
  obtain ⟨hw, h1, hZ, hZ', h2, hA, hA', h3, ha, h4, hs, h5, hp, h6, hn⟩ := ht
  rename_i w b₁ tZ b₂ tA b₃ ta b₄ ts b₅ tp b₆ tn Z A a s p n
  have rw' := reads_word hw
  have rZ := reads_int hZ hZ'
  have rA := reads_int hA hA'
  obtain ⟨da, va, ra⟩ := reads_double ha
  obtain ⟨dx, vs, rs⟩ := reads_double hs
  obtain ⟨dp, vp, rp⟩ := reads_double hp
  obtain ⟨dn, vn, rn⟩ := reads_double hn
  refine ⟨⟨w, Z, A, da, dx, dp, dn⟩, ?_, fun b s' hb hs' => ?_, fun b s' q hb hs' hq => ?_⟩
  · simp [Row.toNuclearRow, va, vs, vp, vn]
  · simp only [List.append_assoc] at *
    rw [readRow_eq, rw'.full b _ hb (ends_separator h1)]
    simp only [Option.bind_some]
    rw [rZ.full _ _ h1.2 (ends_separator h2)]
    simp only [Option.bind_some]
    rw [rA.full _ _ h2.2 (ends_separator h3)]
    simp only [Option.bind_some]
    rw [ra.full _ _ h3.2 (ends_separator h4)]
    simp only [Option.bind_some]
    rw [rs.full _ _ h4.2 (ends_separator h5)]
    simp only [Option.bind_some]
    rw [rp.full _ _ h5.2 (ends_separator h6)]
    simp only [Option.bind_some]
    rw [rn.full _ _ h6.2 hs']
    simp only [Option.bind_some]
  · simp only [List.append_assoc] at hq
    rw [readRow_eq]
    rcases rw'.prefix hb (ends_separator h1) hq with e | ⟨_, e⟩ | ⟨q1, hq, l1, e⟩
    · left; simp [e]
    · left; simp [e, readInt_nil]
    simp only [e, Option.bind_some]
    have lw : 0 < w.length := List.length_pos_iff.2 hw.1
    rcases rZ.prefix h1.2 (ends_separator h2) hq with e | ⟨_, e⟩ | ⟨q2, hq, l2, e⟩
    · left; simp [e]
    · left; simp [e, readInt_nil]
    simp only [e, Option.bind_some]
    rcases rA.prefix h2.2 (ends_separator h3) hq with e | ⟨_, e⟩ | ⟨q3, hq, l3, e⟩
    · left; simp [e]
    · left; simp [e, readDouble_nil]
    simp only [e, Option.bind_some]
    rcases ra.prefix h3.2 (ends_separator h4) hq with e | ⟨_, e⟩ | ⟨q4, hq, l4, e⟩
    · left; simp [e]
    · left; simp [e, readDouble_nil]
    simp only [e, Option.bind_some]
    rcases rs.prefix h4.2 (ends_separator h5) hq with e | ⟨_, e⟩ | ⟨q5, hq, l5, e⟩
    · left; simp [e]
    · left; simp [e, readDouble_nil]
    simp only [e, Option.bind_some]
    rcases rp.prefix h5.2 (ends_separator h6) hq with e | ⟨_, e⟩ | ⟨q6, hq, l6, e⟩
    · left; simp [e]
    · left; simp [e, readDouble_nil]
    simp only [e, Option.bind_some]
    rcases rn.prefix h6.2 hs' hq with e | ⟨v, e⟩ | ⟨q7, hq, l7, e⟩
    · left; simp [e]
    · right; left
      refine ⟨⟨w, Z, A, da, dx, dp, v⟩, ?_, by simp [e]⟩
      simp [SameExceptLast, Row.toNuclearRow, va, vs, vp]
    · right; right
      exact ⟨q7, hq, by omega, by simp [e]⟩

theorem readRow_blank {b : List Char} (hb : Blank b) : readRow b = none := by
  rw [readRow_eq]
  simp [readWord, skipSpace_blank hb]

theorem Blank.prefix {p b : List Char} (hb : Blank b) (h : p <+: b) : Blank p := fun c hc => hb c (h.subset hc)

theorem blank_append {b c : List Char} (hb : Blank b) (hc : Blank c) : Blank (b ++ c) := fun x hx => by
  rcases List.mem_append.1 hx with h | h
  · exact hb x h
  · exact hc x h

theorem readRows_blank {b : List Char} (hb : Blank b) (fuel : ℕ) : readRows fuel b = [] := by
  cases fuel <;> simp [readRows, readRow_blank hb]

/-- Reading a file, also behind white space and before something that is not a row. -/
theorem readRows_full {t s : List Char} {rows : List NuclearRow} (hs : Ends s) (hs' : ∀ b, Blank b → readRow (b ++ s) = none)
    (h : FileText t rows) :
    ∀ (c : List Char) (fuel : ℕ), Blank c → (c ++ (t ++ s)).length < fuel →
      (readRows fuel (c ++ (t ++ s))).map Row.toNuclearRow = rows := by
  have hz : ∀ b fuel, Blank b → readRows fuel (b ++ s) = [] := fun b fuel hb => by cases fuel <;> simp [readRows, hs' b hb]
  induction h with
  | empty hb =>
    intro c fuel hc hf
    rw [← List.append_assoc, hz _ _ (blank_append hc hb)]; rfl
  | @last b t r hb ht =>
    intro c fuel hc hf
    obtain ⟨fuel, rfl⟩ : ∃ f, fuel = f + 1 := ⟨fuel - 1, by omega⟩
    obtain ⟨row, hr, hfull, -⟩ := readRow_text ht
    have e := hfull (c ++ b) s (blank_append hc hb) hs
    have hz' := hz [] fuel (by simp [Blank])
    rw [List.nil_append] at hz'
    simp only [List.append_assoc] at e ⊢
    simp [readRows, e, hr, hz']
  | @row b t r c' t' rows hb ht hc' hf' ih =>
    intro c fuel hc hf
    obtain ⟨fuel, rfl⟩ : ∃ f, fuel = f + 1 := ⟨fuel - 1, by omega⟩
    obtain ⟨row, hr, hfull, hcut⟩ := readRow_text ht
    have e := hfull (c ++ b) (c' ++ (t' ++ s)) (blank_append hc hb) (ends_separator hc')
    simp only [List.append_assoc] at e ⊢
    have hl : (c' ++ (t' ++ s)).length < fuel := by
      have h1 : 0 < t.length := by
        cases t with
        | cons => simp
        | nil =>
          have := hfull [] [] (by simp [Blank]) ends_nil
          rw [show ([] : List Char) ++ ([] ++ []) = [] from rfl, readRow_blank (b := []) (by simp [Blank])] at this
          cases this
      simp only [List.length_append] at hf ⊢
      omega
    simp [readRows, e, hr, ih c' fuel hc'.2 hl]

/-- Reading any beginning of a file. -/
theorem readRows_prefix {t : List Char} {rows : List NuclearRow} (h : FileText t rows) :
    ∀ (c p : List Char) (fuel : ℕ), Blank c → p <+: c ++ t → p.length < fuel →
      ∃ k, (readRows fuel p).map Row.toNuclearRow = rows.take k ∨
        ∃ r r', rows[k]? = some r ∧ SameExceptLast r r' ∧ (readRows fuel p).map Row.toNuclearRow = rows.take k ++ [r'] := by
  induction h with
  | empty hb =>
    intro c p fuel hc hp hf
    exact ⟨0, Or.inl (by simp [readRows_blank (Blank.prefix (blank_append hc hb) hp)])⟩
  | @last b t r hb ht =>
    intro c p fuel hc hp hf
    obtain ⟨fuel, rfl⟩ : ∃ f, fuel = f + 1 := ⟨fuel - 1, by omega⟩
    obtain ⟨row, hr, -, hcut⟩ := readRow_text ht
    rcases hcut (c ++ b) [] p (blank_append hc hb) ends_nil (by simpa using hp) with e | ⟨row', hs, e⟩ | ⟨p', hp', -, e⟩
    · exact ⟨0, Or.inl (by simp [readRows, e])⟩
    · exact ⟨0, Or.inr ⟨r, row'.toNuclearRow, by simp, hs, by simp [readRows, e, readRows_blank (b := []) (by simp [Blank])]⟩⟩
    · rw [List.prefix_nil.1 hp'] at e
      exact ⟨1, Or.inl (by simp [readRows, e, hr, readRows_blank (b := []) (by simp [Blank])])⟩
  | @row b t r c' t' rows hb ht hc' hf' ih =>
    intro c p fuel hc hp hf
    obtain ⟨fuel, rfl⟩ : ∃ f, fuel = f + 1 := ⟨fuel - 1, by omega⟩
    obtain ⟨row, hr, -, hcut⟩ := readRow_text ht
    rcases hcut (c ++ b) (c' ++ t') p (blank_append hc hb) (ends_separator hc') (by simpa using hp) with
      e | ⟨row', hs, e⟩ | ⟨p', hp', hl, e⟩
    · exact ⟨0, Or.inl (by simp [readRows, e])⟩
    · exact ⟨0, Or.inr ⟨r, row'.toNuclearRow, by simp, hs, by simp [readRows, e, readRows_blank (b := []) (by simp [Blank])]⟩⟩
    · obtain ⟨k, h1 | ⟨r1, r2, h1, h2, h3⟩⟩ := ih c' p' fuel hc'.2 hp' (by omega)
      · exact ⟨k + 1, Or.inl (by simp [readRows, e, hr, h1])⟩
      · exact ⟨k + 1, Or.inr ⟨r1, r2, by simpa using h1, h2, by simp [readRows, e, hr, h3]⟩⟩

end Obscura.NuclearText

namespace Obscura.NuclearText

open Spec Spec.NuclearText

/-! ### Reading does not look ahead -/

theorem while_append {p : Char → Bool} {s u : List Char} (h : s.dropWhile p ≠ []) :
    (s ++ u).dropWhile p = s.dropWhile p ++ u ∧ (s ++ u).takeWhile p = s.takeWhile p := by
  induction s with
  | nil => simp at h
  | cons c s ih =>
    by_cases hc : p c = true
    · simp only [List.dropWhile_cons, hc, if_true, List.cons_append, List.takeWhile_cons] at h ⊢
      exact ⟨(ih h).1, by rw [(ih h).2]⟩
    · simp [hc]

/-- A reader that leaves something over reads the same when more text follows. -/
def Local {α : Type} (R : List Char → Option (α × List Char)) : Prop :=
  ∀ s u v r, r ≠ [] → R s = some (v, r) → R (s ++ u) = some (v, r ++ u)

theorem local_word : Local readWord := by
  intro s u v r hr h
  unfold readWord at h ⊢
  simp only at h ⊢
  split_ifs at h with h0
  cases h
  have h1 : skipSpace s ≠ [] := fun h => by rw [h] at h0; exact h0 rfl
  have h2 := while_append (u := u) h1
  have h3 := while_append (u := u) hr
  unfold skipSpace at *
  rw [h2.1, h3.2, if_neg h0, h3.1]

theorem readSign_append {s : List Char} (u : List Char) (h : s ≠ []) : readSign (s ++ u) = ((readSign s).1, (readSign s).2 ++ u) := by
  obtain ⟨c, r, rfl⟩ := List.exists_cons_of_ne_nil h
  by_cases h1 : c = '-'
  · subst h1; rfl
  by_cases h2 : c = '+'
  · subst h2; rfl
  have : ∀ l, NoSign (c :: l) := fun l c' r' h => by cases h; exact ⟨h1, h2⟩
  rw [List.cons_append, readSign_noSign (this _), readSign_noSign (this _)]; rfl

theorem local_digits : Local readDigits := by
  intro s u v r hr h
  unfold readDigits at h ⊢
  have h0 : s ≠ [] := by rintro rfl; simp [readSign] at h
  rw [readSign_append u h0]
  simp only at h ⊢
  split_ifs at h with h1
  cases h
  have h3 := while_append (u := u) hr
  rw [h3.2, h3.1, if_neg h1]

theorem readDigits_nil : readDigits [] = none := rfl

theorem local_int : Local readInt := by
  intro s u v r hr h
  unfold readInt at h ⊢
  have h0 : skipSpace s ≠ [] := fun e => by rw [e, readDigits_nil] at h; cases h
  have h2 := while_append (u := u) h0
  rw [show skipSpace (s ++ u) = skipSpace s ++ u from h2.1]
  rcases e : readDigits (skipSpace s) with _ | ⟨n, r'⟩
  · rw [e] at h; cases h
  · rw [e] at h
    simp only at h
    split_ifs at h with h3
    cases h
    rw [local_digits _ u _ _ hr e]
    simp only
    rw [if_pos h3]

theorem readExponent_local : Local readExponent := by
  intro s u v r hr h
  cases s with
  | nil => simp [readExponent] at h; exact absurd h.2 hr
  | cons c s =>
    by_cases h1 : c = 'e'
    · subst h1; exact local_digits s u v r hr h
    by_cases h2 : c = 'E'
    · subst h2; exact local_digits s u v r hr h
    have hh : ∀ l, readExponent (c :: l) = some (0, c :: l) := fun l =>
      readExponent_other fun c' r' h => by cases h; exact ⟨h1, h2⟩
    rw [hh] at h
    cases h
    rw [List.cons_append, hh]

theorem readFraction_append {s : List Char} (u : List Char) (h : (readFraction s).2 ≠ []) :
    readFraction (s ++ u) = ((readFraction s).1, (readFraction s).2 ++ u) := by
  cases s with
  | nil => exact absurd rfl h
  | cons c s =>
    by_cases h1 : c = '.'
    · subst h1
      have := while_append (u := u) (p := isDigit) (s := s) h
      show (_, _) = _
      exact Prod.ext this.2 this.1
    have hh : ∀ l, readFraction (c :: l) = ([], c :: l) := fun l => readFraction_other fun c' r' h => by cases h; exact h1
    rw [hh, List.cons_append, hh]

theorem local_double : Local readDouble := by
  intro s u v r hr h
  unfold readDouble at h ⊢
  simp only at h ⊢
  split_ifs at h with h0
  rcases e : readExponent (readFraction ((readSign (skipSpace s)).2.dropWhile isDigit)).2 with _ | ⟨x, r'⟩
  · rw [e] at h; cases h
  · rw [e] at h
    cases h
    have n1 : (readFraction ((readSign (skipSpace s)).2.dropWhile isDigit)).2 ≠ [] := fun h => by
      rw [h] at e; simp [readExponent] at e; exact hr e.2
    have n2 : (readSign (skipSpace s)).2.dropWhile isDigit ≠ [] := fun h => by rw [h] at n1; exact n1 rfl
    have n3 : skipSpace s ≠ [] := fun h => by rw [h] at n2; exact n2 rfl
    have e1 : skipSpace (s ++ u) = skipSpace s ++ u := (while_append (u := u) n3).1
    have e2 := while_append (u := u) n2
    rw [e1, readSign_append u n3]
    simp only
    rw [e2.1, e2.2, readFraction_append u n1]
    simp only
    rw [if_neg h0, readExponent_local _ u _ _ hr e]

theorem Local.bind {α β : Type} {R : List Char → Option (α × List Char)} {Q : α → List Char → Option (β × List Char)} (hR : Local R)
    (hQ : ∀ a, Local (Q a)) (h0 : ∀ a, Q a [] = none) : Local fun s => (R s).bind fun x => Q x.1 x.2 := by
  intro s u v r hr h
  simp only at h ⊢
  rcases e : R s with _ | ⟨a, s'⟩
  · rw [e] at h; cases h
  · rw [e] at h
    simp only [Option.bind_some] at h
    have : s' ≠ [] := by rintro rfl; rw [h0] at h; cases h
    rw [hR s u a s' this e]
    exact hQ a s' u v r hr h

theorem local_row : Local readRow := by
  have e : readRow = fun s => (readWord s).bind fun x => (readInt x.2).bind fun x1 => (readInt x1.2).bind fun x2 =>
      (readDouble x2.2).bind fun x3 => (readDouble x3.2).bind fun x4 => (readDouble x4.2).bind fun x5 =>
      (readDouble x5.2).bind fun x6 => some (⟨x.1, x1.1, x2.1, x3.1, x4.1, x5.1, x6.1⟩, x6.2) := rfl
  rw [e]
  refine Local.bind local_word (fun w => Local.bind local_int (fun Z => Local.bind local_int (fun A => Local.bind local_double (fun a =>
    Local.bind local_double (fun x => Local.bind local_double
    (Q := fun p s => (readDouble s).bind fun x6 => some (Row.mk w Z A a x p x6.1, x6.2)) (fun p => ?_) ?_) ?_) ?_) ?_) ?_) ?_
  · intro s u v r hr h
    simp only at h ⊢
    rcases e : readDouble s with _ | ⟨n, s'⟩
    · rw [e] at h; cases h
    · rw [e] at h
      cases h
      rw [local_double s u n _ hr e]; rfl
  all_goals intro a; rfl

theorem readRow_skip {b s : List Char} (hb : Blank b) : readRow (b ++ s) = readRow s := by
  rw [readRow_eq, readRow_eq]
  unfold readWord
  rw [skipSpace_append hb]

/-! ### The shipped file -/

/-- `d = n / 10 ^ k`. -/
def Decimal.same (d : Decimal) (n : ℤ) (k : ℕ) : Bool :=
  if 0 ≤ d.exp + k then d.mant * 10 ^ (d.exp + k).toNat == n else d.mant == n * 10 ^ (-(d.exp + k)).toNat

theorem Decimal.value_of_same {d : Decimal} {n : ℤ} {k : ℕ} (h : d.same n k = true) : d.value = n / 10 ^ k := by
  unfold Decimal.same at h
  unfold Decimal.value
  have h10 : (10 : ℝ) ≠ 0 := by norm_num
  rw [eq_div_iff (by positivity), mul_assoc, ← zpow_natCast, ← zpow_add₀ h10]
  split_ifs at h with h0
  · rw [beq_iff_eq] at h
    rw [← h]
    push_cast
    rw [← zpow_natCast, Int.toNat_of_nonneg h0]
  · rw [beq_iff_eq] at h
    rw [h]
    push_cast
    rw [mul_assoc, ← zpow_natCast, Int.toNat_of_nonneg (by omega), ← zpow_add₀ h10]
    simp

/-- The row that was read is the row of the table. -/
def Row.same (r : Row) (s : RawRow) : Bool :=
  String.ofList r.name == s.name && r.Z == s.Z && r.A == s.A && r.abundance.same s.abundance 8 &&
    Decimal.same ⟨2 * r.spin.mant, r.spin.exp⟩ s.twoSpin 0 && r.sp.same s.sp 4 && r.sn.same s.sn 4

theorem Row.toNuclearRow_of_same {r : Row} {s : RawRow} (h : r.same s = true) : r.toNuclearRow = s.toRow := by
  unfold Row.same at h
  simp only [Bool.and_eq_true, beq_iff_eq] at h
  obtain ⟨⟨⟨⟨⟨⟨h1, h2⟩, h3⟩, h4⟩, h5⟩, h6⟩, h7⟩ := h
  have e5 : r.spin.value = s.twoSpin / 2 := by
    have := Decimal.value_of_same h5
    unfold Decimal.value at this ⊢
    push_cast at this
    linarith
  unfold Row.toNuclearRow RawRow.toRow
  rw [h1, h2, h3, Decimal.value_of_same h4, e5, Decimal.value_of_same h6, Decimal.value_of_same h7]
  simp

/-- The check of one line: it is read as that row, and what remains is `rest`. -/
def lineOk (rest : List Char) (x : String × RawRow) : Bool :=
  match readRow x.1.toList with
  | none => false
  | some (row, r) => r == rest && row.same x.2

theorem readRows_lines : ∀ (l : List (String × RawRow)) (last : String × RawRow) (b : List Char) (fuel : ℕ),
    (∀ x ∈ l, lineOk ['\r'] x = true) → lineOk [] last = true → Blank b → l.length + 2 ≤ fuel →
    (readRows fuel (b ++ ((l ++ [last]).map Prod.fst).flatMap String.toList)).map Row.toNuclearRow =
      ((l ++ [last]).map Prod.snd).map RawRow.toRow := by
  intro l last
  have hr : Blank ['\r'] := by simp [Blank, IsBlank]
  induction l with
  | nil =>
    intro b fuel _ hlast hb hf
    obtain ⟨fuel, rfl⟩ : ∃ f, fuel = f + 1 := ⟨fuel - 1, by omega⟩
    unfold lineOk at hlast
    rcases e : readRow last.1.toList with _ | ⟨row, r⟩
    · rw [e] at hlast; cases hlast
    · rw [e] at hlast
      simp only [Bool.and_eq_true, beq_iff_eq] at hlast
      obtain ⟨rfl, h2⟩ := hlast
      simp [readRows, readRow_skip hb, e, readRows_blank (b := []) (by simp [Blank]), Row.toNuclearRow_of_same h2]
  | cons x l ih =>
    intro b fuel hl hlast hb hf
    obtain ⟨fuel, rfl⟩ : ∃ f, fuel = f + 1 := ⟨fuel - 1, by omega⟩
    have hx := hl x (by simp)
    unfold lineOk at hx
    rcases e : readRow x.1.toList with _ | ⟨row, r⟩
    · rw [e] at hx; cases hx
    · rw [e] at hx
      simp only [Bool.and_eq_true, beq_iff_eq] at hx
      obtain ⟨rfl, h2⟩ := hx
      have e' := local_row _ (((l ++ [last]).map Prod.fst).flatMap String.toList) _ _ (by simp) e
      have := ih ['\r'] fuel (fun y hy => hl y (by simp [hy])) hlast hr (by simp at hf; omega)
      simp only [List.cons_append, List.map_cons, List.flatMap_cons, readRows, readRow_skip hb, e', List.map_cons,
        Row.toNuclearRow_of_same h2]
      rw [← this]; rfl

/-! ### Incomplete tables -/

variable (U : Units)

/-- `importLoop` on a table whose elements are those up to `m`. -/
theorem importLoop_upto (m : ℕ) (hm : m ≤ 92) (rows : List NuclearRow) :
    ∀ (zOld : ℕ) (isos : List Isotope) (nuclei : List Nucleus), rows.Pairwise (fun r s => r.Z ≤ s.Z) →
      (∀ r ∈ rows, zOld ≤ r.Z ∧ r.Z ≤ m) → 1 ≤ zOld → zOld ≤ m → (∀ Z, zOld < Z → Z ≤ m → ∃ r ∈ rows, r.Z = Z) →
      (∀ iso ∈ isos, iso.Z = zOld) → (isos ≠ [] ∨ ∃ r ∈ rows, r.Z = zOld) →
      importLoop U rows zOld isos nuclei = .ok (nuclei ++
        { Z := some zOld, isotopes := isos ++ (rows.filter fun r => r.Z = zOld).map (isotopeOf U),
          name := nucleusNames.getD (zOld - 1) "" } ::
        (List.range' (zOld + 1) (m - zOld)).map (element U rows)) := by
  induction rows with
  | nil =>
    intro z isos nuclei _ _ h1 h2 hc hi hne
    have hz : z = m := by
      by_contra h
      obtain ⟨r, hr, _⟩ := hc m (by omega) le_rfl
      simp at hr
    have hne : isos ≠ [] := hne.elim id (by simp)
    simp only [importLoop, ofIsotopes_ok hne hi h1 (by omega), Outcome.bind_ok, hz]
    simp
  | cons r rows ih =>
    intro z isos nuclei hs hr h1 h2 hc hi hne
    have hr0 := hr r (by simp)
    have hs' := (List.pairwise_cons.1 hs)
    have hiso : r.isotope U = .ok (isotopeOf U r) := row_isotope ⟨by omega, by omega⟩
    unfold importLoop
    split_ifs with hlt
    · have hz : r.Z = z + 1 := by
        obtain ⟨s, hs1, hs2⟩ := hc (z + 1) (by omega) (by omega)
        rcases List.mem_cons.1 hs1 with rfl | hs1
        · exact hs2
        · have := hs'.1 s hs1; omega
      have hne' : isos ≠ [] := by
        rcases hne with h | ⟨s, hs1, hs2⟩
        · exact h
        · rcases List.mem_cons.1 hs1 with rfl | hs1
          · omega
          · have := hs'.1 s hs1; omega
      have hno : (r :: rows).filter (fun r => r.Z = z) = [] := by
        rw [List.filter_eq_nil_iff]
        intro s hs1
        rcases List.mem_cons.1 hs1 with rfl | hs1
        · simp; omega
        · have := hs'.1 s hs1; simp; omega
      simp only [ofIsotopes_ok hne' hi h1 (by omega), hiso, Outcome.bind_ok]
      rw [ih r.Z [isotopeOf U r] _ hs'.2 (fun s hs1 => ⟨hs'.1 s hs1, (hr s (by simp [hs1])).2⟩) (by omega) hr0.2
        (fun Z hZ hZ' => by
          obtain ⟨s, hs1, hs2⟩ := hc Z (by omega) hZ'
          rcases List.mem_cons.1 hs1 with rfl | hs1
          · omega
          · exact ⟨s, hs1, hs2⟩)
        (by simp [isotopeOf]) (.inl (by simp))]
      have h92 : m - z = (m - r.Z) + 1 := by omega
      rw [hno, h92, List.range'_succ, ← hz]
      congr 1
      simp only [List.append_assoc, List.map_cons, List.map_nil, List.append_nil, List.cons_append, List.nil_append]
      congr 3
      · simp [element, isotopeOf]
      · refine List.map_congr_left fun Z hZ => ?_
        have : r.Z ≠ Z := by
          have := (List.mem_range'_1.1 hZ).1; omega
        simp [element, this]
    · have hz : r.Z = z := by omega
      simp only [hiso, Outcome.bind_ok]
      rw [ih z (isos ++ [isotopeOf U r]) nuclei hs'.2 (fun s hs1 => ⟨hz ▸ hs'.1 s hs1, (hr s (by simp [hs1])).2⟩) h1 h2
        (fun Z hZ hZ' => by
          obtain ⟨s, hs1, hs2⟩ := hc Z hZ hZ'
          rcases List.mem_cons.1 hs1 with rfl | hs1
          · omega
          · exact ⟨s, hs1, hs2⟩)
        (fun iso h => by
          rcases List.mem_append.1 h with h | h
          · exact hi iso h
          · simp only [List.mem_singleton] at h; subst h; exact hz)
        (.inl (by simp))]
      congr 3
      · simp [hz]
      · refine List.map_congr_left fun Z hZ => ?_
        have : r.Z ≠ Z := by
          have := (List.mem_range'_1.1 hZ).1; omega
        simp [element, this]

end Obscura.NuclearText
