import Verif.Model.DateText
import Verif.Props.Calendar

/-!
# What a written date means

A pattern such as `%d.%m.%Y %H:%M` says how a date is written.  `write` writes a date-time with a pattern the usual way:
four digits for the year, two digits for every other field, all other characters as they are.  `Reading` is the lenient
reading the documentation of `strptime` promises: a field is a decimal number of limited length within its range, blanks
may precede it, a blank of the pattern stands for any number of blanks and every other character for itself.
Neither refers to the parser.
-/

namespace HB.DateText.Spec

/-- A valid date-time between 1900 and 2100. -/
structure Modern (t : CTime) : Prop where
  valid : HB.Spec.DateTime t
  y0 : 1900 ≤ t.year
  y1 : t.year ≤ 2100

/-- The decimal digit `k`. -/
def digit (k : ℕ) : Char := Char.ofNat (48 + k)

/-- A number below 100 on two digits. -/
def two (v : ℕ) : List Char := [digit (v / 10 % 10), digit (v % 10)]

/-- A number below 10000 on four digits. -/
def four (v : ℕ) : List Char := [digit (v / 1000 % 10), digit (v / 100 % 10), digit (v / 10 % 10), digit (v % 10)]

/-- A field of a date-time. -/
def part (t : CTime) : Char → ℤ
  | 'Y' => t.year | 'm' => t.month | 'd' => t.day | 'H' => t.hour | 'M' => t.min | 'S' => t.sec | _ => 0

/-- A date-time written with a pattern. -/
def write (t : CTime) : List Item → List Char
  | [] => []
  | .num c :: f => (if c = 'Y' then four t.year.toNat else two (part t c).toNat) ++ write t f
  | .sp :: f => ' ' :: write t f
  | .lit c :: f => c :: write t f

/-- The text of a date-time in a pattern. -/
def text (pat : String) (t : CTime) : String := String.ofList (write t (items pat.toList))

/-- What a pattern does not show is zero. -/
def Shown (pat : String) (t : CTime) : Prop :=
  (.num 'S' ∉ items pat.toList → t.sec = 0) ∧ (.num 'M' ∉ items pat.toList → t.min = 0) ∧
  (.num 'H' ∉ items pat.toList → t.hour = 0)

/-- The date formats a user may announce, with the ways of writing each of them covers. -/
def ways : TimeFormat → List String
  | .ISOdate | .YYYY_MM_DD => ["%Y-%m-%d", "%Y.%m.%d", "%Y/%m/%d", "%Y%m%d"]
  | .DD_MM_YYYY => ["%d-%m-%Y", "%d.%m.%Y", "%d/%m/%Y", "%d%m%Y"]
  | .ISOdateTime | .YYYY_MM_DD_hh_mm | .YYYY_MM_DD_hh_mm_ss =>
    ["%Y-%m-%dT%H:%M:%S", "%Y%m%dT%H%M%S", "%Y-%m-%d %H:%M:%S", "%Y.%m.%d %H:%M:%S", "%Y/%m/%d %H:%M:%S",
     "%Y%m%d %H%M%S", "%Y%m%d%H%M%S",
     "%Y-%m-%d %H:%M", "%Y.%m.%d %H:%M", "%Y/%m/%d %H:%M", "%Y%m%d %H:%M", "%Y%m%d %H%M", "%Y%m%d%H%M"]
  | .DD_MM_YYYY_hh_mm | .DD_MM_YYYY_hh_mm_ss =>
    ["%d-%m-%Y %H:%M:%S", "%d.%m.%Y %H:%M:%S", "%d/%m/%Y %H:%M:%S", "%d%m%Y %H:%M:%S", "%d%m%Y %H%M%S", "%d%m%Y%H%M%S",
     "%d-%m-%Y %H:%M", "%d.%m.%Y %H:%M", "%d/%m/%Y %H:%M", "%d%m%Y %H:%M", "%d%m%Y %H%M", "%d%m%Y%H%M"]
  | .guess =>
    ["%Y-%m-%d", "%Y/%m/%d", "%Y%m%d", "%d-%m-%Y", "%d.%m.%Y", "%d/%m/%Y", "%d%m%Y",
     "%Y-%m-%dT%H:%M:%S", "%Y%m%dT%H%M%S", "%Y-%m-%d %H:%M:%S", "%Y.%m.%d %H:%M:%S", "%Y/%m/%d %H:%M:%S",
     "%Y%m%d %H%M%S", "%Y%m%d%H%M%S",
     "%Y-%m-%d %H:%M", "%Y.%m.%d %H:%M", "%Y/%m/%d %H:%M", "%Y%m%d %H:%M",
     "%d-%m-%Y %H:%M:%S", "%d.%m.%Y %H:%M:%S", "%d/%m/%Y %H:%M:%S", "%d%m%Y %H:%M:%S",
     "%d-%m-%Y %H:%M", "%d.%m.%Y %H:%M", "%d/%m/%Y %H:%M", "%d%m%Y %H:%M"]

/-- A blank. -/
def Blank (c : Char) : Prop := c ∈ [' ', '\t', '\n', '\x0b', '\x0c', '\r']

/-- The number written by a list of decimal digits. -/
inductive Decimal : List Char → ℕ → Prop
  | one (k : ℕ) (h : k < 10) : Decimal [digit k] k
  | more (l : List Char) (v k : ℕ) (h : k < 10) : Decimal l v → Decimal (l ++ [digit k]) (v * 10 + k)

/-- Least and greatest value of a field and its largest number of digits. -/
def range : Char → ℕ × ℕ × ℕ
  | 'Y' => (0, 9999, 4) | 'm' => (1, 12, 2) | 'd' => (1, 31, 2) | 'H' => (0, 23, 2) | 'M' => (0, 59, 2) | 'S' => (0, 61, 2)
  | _ => (1, 0, 0)

/-- `Reading pat s r`: the text `s` follows the pattern `pat`, and `r` lists the fields read, in order. -/
inductive Reading : List Item → List Char → List (Char × ℕ) → Prop
  | done (bs : List Char) : (∀ b ∈ bs, Blank b) → Reading [] bs []
  | num (c : Char) (f : List Item) (bs ds s : List Char) (v : ℕ) (r : List (Char × ℕ)) :
      (∀ b ∈ bs, Blank b) → Decimal ds v → ds.length ≤ (range c).2.2 → (range c).1 ≤ v → v ≤ (range c).2.1 →
      Reading f s r → Reading (.num c :: f) (bs ++ ds ++ s) ((c, v) :: r)
  | blank (f : List Item) (bs s : List Char) (r : List (Char × ℕ)) : (∀ b ∈ bs, Blank b) →
      Reading f s r → Reading (.sp :: f) (bs ++ s) r
  | lit (c : Char) (f : List Item) (s : List Char) (r : List (Char × ℕ)) : Reading f s r →
      Reading (.lit c :: f) (c :: s) r

/-- The fields of a list of readings as a date-time (absent ones are zero). -/
def fields (r : List (Char × ℕ)) : CTime :=
  let g := fun c => ((r.lookup c).getD 0 : ℤ)
  ⟨g 'Y', g 'm', g 'd', g 'H', g 'M', g 'S'⟩

end HB.DateText.Spec
