import Verif.Model.NuclearData
import Mathlib.Data.Nat.Digits.Defs

/-!
# The format of the nuclear data file

A table is written as text: rows of seven items — name, Z, A, abundance, spin, `<S_p>`, `<S_n>` — separated by any white space. The relations
below say which text means which table; they do not mention how it is read.
-/

namespace Obscura.Spec.NuclearText

/-- The white space characters: blank, tab, line feed, vertical tab, form feed, carriage return. -/
def IsBlank (c : Char) : Prop := c = ' ' ∨ c = '\t' ∨ c = '\n' ∨ c = '\x0b' ∨ c = '\x0c' ∨ c = '\r'

/-- Possibly empty white space. -/
def Blank (w : List Char) : Prop := ∀ c ∈ w, IsBlank c

/-- White space between two items. -/
def Separator (w : List Char) : Prop := w ≠ [] ∧ Blank w

/-- A name: no white space inside. -/
def Word (w : List Char) : Prop := w ≠ [] ∧ ∀ c ∈ w, ¬ IsBlank c

/-- The digits '0' to '9'. -/
def digit (d : Fin 10) : Char := Char.ofNat (48 + d)

/-- A run of digits. -/
def digits (ds : List (Fin 10)) : List Char := ds.map digit

/-- The natural number written by digits, most significant first. -/
def number (ds : List (Fin 10)) : ℕ := Nat.ofDigits 10 (ds.reverse.map Fin.val)

/-- An optional sign and the factor it stands for. -/
inductive SignText : List Char → ℤ → Prop
  | none : SignText [] 1
  | plus : SignText ['+'] 1
  | minus : SignText ['-'] (-1)

/-- An integer. -/
inductive IntText : List Char → ℤ → Prop
  | mk {σ s ds} : SignText σ s → ds ≠ [] → IntText (σ ++ digits ds) (s * number ds)

/-- An optional decimal point and the digits behind it. -/
inductive FractionText : List Char → List (Fin 10) → Prop
  | none : FractionText [] []
  | point (fs) : FractionText ('.' :: digits fs) fs

/-- An optional exponent. -/
inductive ExponentText : List Char → ℤ → Prop
  | none : ExponentText [] 0
  | lower {t n} : IntText t n → ExponentText ('e' :: t) n
  | upper {t n} : IntText t n → ExponentText ('E' :: t) n

/-- A decimal number, such as `-0.081`, `1`, `.5` or `1.37E-06`. -/
inductive DecimalText : List Char → ℝ → Prop
  | mk {σ s ds φ fs ε e} : SignText σ s → FractionText φ fs → (ds ≠ [] ∨ fs ≠ []) → ExponentText ε e →
      DecimalText (σ ++ (digits ds ++ (φ ++ ε))) (s * (number ds + number fs / 10 ^ fs.length) * (10 : ℝ) ^ e)

/-- A row. -/
inductive RowText : List Char → NuclearRow → Prop
  | mk {w b₁ tZ b₂ tA b₃ ta b₄ ts b₅ tp b₆ tn} {Z A : ℕ} {a s p n} :
      Word w → Separator b₁ → IntText tZ Z → Z < 2 ^ 31 → Separator b₂ → IntText tA A → A < 2 ^ 31 → Separator b₃ → DecimalText ta a →
      Separator b₄ → DecimalText ts s → Separator b₅ → DecimalText tp p → Separator b₆ → DecimalText tn n →
      RowText (w ++ (b₁ ++ (tZ ++ (b₂ ++ (tA ++ (b₃ ++ (ta ++ (b₄ ++ (ts ++ (b₅ ++ (tp ++ (b₆ ++ tn))))))))))))
        { name := String.ofList w, Z := Z, A := A, abundance := a, spin := s, sp := p, sn := n }

/-- A file: rows separated by white space, with or without white space at the end. -/
inductive FileText : List Char → List NuclearRow → Prop
  | empty {b} : Blank b → FileText b []
  | last {b t r} : Blank b → RowText t r → FileText (b ++ t) [r]
  | row {b t r c t' rows} : Blank b → RowText t r → Separator c → FileText t' rows → FileText (b ++ (t ++ (c ++ t'))) (r :: rows)

/-- Two rows that agree except in the last column. -/
def SameExceptLast (r r' : NuclearRow) : Prop := { r' with sn := r.sn } = r

end Obscura.Spec.NuclearText
