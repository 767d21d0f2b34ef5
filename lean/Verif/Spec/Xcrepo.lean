import Verif.Model.Xcrepo
/-
Specification of the file format read by dataset/xcrepo, written with concatenation (no splitting
functions): tokens, lines, and the outcome a line must have.
-/
namespace Goslide.Spec
variable {F : Type}

/-- Tokens separated by single separator bytes. -/
def joinWith (sep : UInt8) : List Bytes → Bytes
  | [] => []
  | [t] => t
  | t :: ts => t ++ sep :: joinWith sep ts

/-- A byte that is an ASCII decimal digit. -/
def IsDigit (c : UInt8) : Prop := 48 ≤ c.toNat ∧ c.toNat ≤ 57

/-- The number written by a string of digits. -/
def natOfDigits (ds : Bytes) : Nat := ds.foldl (fun a c => a * 10 + (c.toNat - 48)) 0

/-- `t` writes the integer `v`: optional sign, one or more digits, within the 64-bit range. -/
def WritesInt (t : Bytes) (v : Int) : Prop :=
  -(2 : Int) ^ 63 ≤ v ∧ v < (2 : Int) ^ 63 ∧
  ∃ ds : Bytes, ds ≠ [] ∧ (∀ c ∈ ds, IsDigit c) ∧
    ((t = ds ∧ v = natOfDigits ds) ∨ (t = 43 :: ds ∧ v = natOfDigits ds) ∨
     (t = 45 :: ds ∧ v = -(natOfDigits ds : Int)))

/-- `t` writes the feature `p`: an integer, a colon, and a token that `ParseFloat` accepts and that
contains no further colon. -/
def WritesFeature (parseFloat : Bytes → Option F) (t : Bytes) (p : Pair F) : Prop :=
  ∃ a b, t = a ++ 58 :: b ∧ 58 ∉ b ∧ WritesInt a p.Index ∧ parseFloat b = some p.Value

/-- `t` is neither a feature nor an integer outside `[0,n)` followed by a colon and one more
colon-free part. -/
def NotFeature (parseFloat : Bytes → Option F) (n : Int) (t : Bytes) : Prop :=
  (¬ ∃ p, WritesFeature parseFloat t p) ∧
  ¬ ∃ a b v, t = a ++ 58 :: b ∧ 58 ∉ b ∧ WritesInt a v ∧ (v < 0 ∨ n ≤ v)

/-- Two lists of the same length, related position by position. -/
inductive All2 {α β : Type} (R : α → β → Prop) : List α → List β → Prop
  | nil : All2 R [] []
  | cons {a b as bs} : R a b → All2 R as bs → All2 R (a :: as) (b :: bs)

/-- The label part `str` of a line writes the label list `ls`, all within `[0,n)` (an empty part is the
empty list). -/
def WritesLabels (n : Int) (str : Bytes) (ls : List Int) : Prop :=
  (str = [] ∧ ls = []) ∨
  ∃ toks : List Bytes, toks ≠ [] ∧ str = joinWith 44 toks ∧
    All2 (fun t l => WritesInt t l ∧ 0 ≤ l ∧ l < n) toks ls

/-- Space-free tokens that write features with an index in `[0,n)`. -/
def WritesFeatures (parseFloat : Bytes → Option F) (n : Int) (toks : List Bytes) (ps : List (Pair F)) : Prop :=
  All2 (fun t p => 32 ∉ t ∧ WritesFeature parseFloat t p ∧ 0 ≤ p.Index ∧ p.Index < n) toks ps

/-- The outcome a line (without its line end) must have, for a file with `nF` features and `nL` labels:
an example, or the error of the first offending token. -/
inductive LineOutcome (parseFloat : Bytes → Option F) (nF nL : Int) : Bytes → Except Xcrepo.Err (Example F) → Prop
  /-- labels, then at least one feature, everything well-formed and in range -/
  | ok (str : Bytes) (toks : List Bytes) (e : Example F) :
      32 ∉ str → WritesLabels nL str e.Labels →
      toks ≠ [] → WritesFeatures parseFloat nF toks e.Features →
      LineOutcome parseFloat nF nL (str ++ 32 :: joinWith 32 toks) (.ok e)
  /-- the first bad label is not an integer (whatever follows the label part) -/
  | badLabel (pre post : List Bytes) (bad : Bytes) (ls : List Int) (str tail : Bytes) :
      str = joinWith 44 (pre ++ bad :: post) → str ≠ [] → 32 ∉ str → 44 ∉ bad →
      All2 (fun t l => WritesInt t l ∧ 0 ≤ l ∧ l < nL) pre ls →
      (¬ ∃ v, WritesInt bad v) →
      (tail = [] ∨ ∃ rest, tail = 32 :: rest) →
      LineOutcome parseFloat nF nL (str ++ tail) (.error .malformedLabels)
  /-- the first bad label is an integer outside `[0,nL)` -/
  | labelOutOfBounds (pre post : List Bytes) (bad : Bytes) (v : Int) (ls : List Int) (str tail : Bytes) :
      str = joinWith 44 (pre ++ bad :: post) → 32 ∉ str →
      All2 (fun t l => WritesInt t l ∧ 0 ≤ l ∧ l < nL) pre ls →
      WritesInt bad v → (v < 0 ∨ nL ≤ v) →
      (tail = [] ∨ ∃ rest, tail = 32 :: rest) →
      LineOutcome parseFloat nF nL (str ++ tail) (.error .labelOutOfBounds)
  /-- good labels and nothing else (an empty line included) -/
  | missingFeatures (str : Bytes) (ls : List Int) :
      32 ∉ str → WritesLabels nL str ls →
      LineOutcome parseFloat nF nL str (.error .missingFeatures)
  /-- good labels; the first bad feature is malformed -/
  | badFeature (str : Bytes) (ls : List Int) (pre post : List Bytes) (bad : Bytes) (ps : List (Pair F)) :
      32 ∉ str → WritesLabels nL str ls → WritesFeatures parseFloat nF pre ps →
      32 ∉ bad → NotFeature parseFloat nF bad →
      LineOutcome parseFloat nF nL (str ++ 32 :: joinWith 32 (pre ++ bad :: post)) (.error .malformedFeatures)
  /-- good labels; the first bad feature has an index outside `[0,nF)` -/
  | featureIndexOutOfBounds (str : Bytes) (ls : List Int) (pre post : List Bytes) (a b : Bytes) (v : Int)
      (ps : List (Pair F)) :
      32 ∉ str → WritesLabels nL str ls → WritesFeatures parseFloat nF pre ps →
      32 ∉ b → 58 ∉ b → WritesInt a v → (v < 0 ∨ nF ≤ v) →
      LineOutcome parseFloat nF nL (str ++ 32 :: joinWith 32 (pre ++ (a ++ 58 :: b) :: post))
        (.error .featureIndexOutOfBounds)

/-- A run of an iterator: `scan` returns true on each element of `es` in turn. -/
inductive Delivers {S E : Type} (scan : S → Bool × S) (ex : S → E) : S → List E → S → Prop
  | done (s : S) : Delivers scan ex s [] s
  | next (s s' s'' : S) (es : List E) : scan s = (true, s') → Delivers scan ex s' es s'' →
      Delivers scan ex s (ex s' :: es) s''

/-- The decimal digits of `n`, at most `fuel` of them. -/
def showDigits : (fuel : Nat) → Nat → Bytes
  | 0, _ => []
  | fuel + 1, n => (if n < 10 then [] else showDigits fuel (n / 10)) ++ [UInt8.ofNat (48 + n % 10)]

/-- A decimal number. -/
def showNat (n : Nat) : Bytes := showDigits (n + 1) n

/-- A feature as text, values written by `showFloat`. -/
def showFeature (showFloat : F → Bytes) (p : Pair F) : Bytes := showNat p.Index.toNat ++ 58 :: showFloat p.Value

/-- An example as a line. -/
def showExample (showFloat : F → Bytes) (e : Example F) : Bytes :=
  joinWith 44 (e.Labels.map (fun l => showNat l.toNat)) ++
    32 :: joinWith 32 (e.Features.map (showFeature showFloat))

/-- The header line. -/
def showHeader (points nF nL : Nat) : Bytes := joinWith 32 [showNat points, showNat nF, showNat nL]

/-- A text file made of lines, each with its line end. -/
def fileOf (lines : List (Bytes × Bytes)) : Bytes := lines.flatMap (fun l => l.1 ++ l.2)

/-- The line ends accepted by the scanner. -/
def IsEol (e : Bytes) : Prop := e = [10] ∨ e = [13, 10]

/-- `FirstLine content n line rest`: the first line of a non-empty input. `line` is its text without
the line end (LF, CRLF, or the end of the input), `n` the number of bytes before the newline, `rest`
what follows. -/
inductive FirstLine : Bytes → Nat → Bytes → Bytes → Prop
  | lf (line rest : Bytes) : 10 ∉ line → line.getLast? ≠ some 13 →
      FirstLine (line ++ 10 :: rest) line.length line rest
  | crlf (line rest : Bytes) : 10 ∉ line →
      FirstLine (line ++ 13 :: 10 :: rest) (line.length + 1) line rest
  | last (line : Bytes) : line ≠ [] → 10 ∉ line → line.getLast? ≠ some 13 →
      FirstLine line line.length line []
  | lastCr (line : Bytes) : 10 ∉ line → FirstLine (line ++ [13]) (line.length + 1) line []

/-- `line` is a header with the given counts: three positive integers separated by single spaces. -/
def WritesHeader (line : Bytes) (points nF nL : Int) : Prop :=
  0 < points ∧ 0 < nF ∧ 0 < nL ∧
  ∃ a b c, line = joinWith 32 [a, b, c] ∧ WritesInt a points ∧ WritesInt b nF ∧ WritesInt c nL

/-- One line of a file with its line end; only the last line of the file may lack the newline. -/
def IsRawLine (isLast : Prop) (l : Bytes) : Prop :=
  (∃ body, l = body ++ [10] ∧ 10 ∉ body) ∨ (isLast ∧ l ≠ [] ∧ 10 ∉ l)

end Goslide.Spec
