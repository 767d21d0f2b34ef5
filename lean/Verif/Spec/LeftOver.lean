import Verif.Spec.Configuration
/-
What `Example()` holds after a line with an error; keys of the configuration up to case; null elements.
-/
namespace Goslide.Spec
variable {F : Type} [GoFloat F]

/-- A label in range. -/
def IsLabel (n : Int) (t : Bytes) : Prop := ∃ v, WritesInt t v ∧ 0 ≤ v ∧ v < n

/-- A feature in range. -/
def IsFeature (parseFloat : Bytes → Option F) (n : Int) (t : Bytes) : Prop :=
  ∃ p, WritesFeature parseFloat t p ∧ 0 ≤ p.Index ∧ p.Index < n

/-- The example left by a bad line: the parsed labels and features before the first bad token, and zeros for the bad
token and everything of the same kind after it. -/
inductive LeftOver (parseFloat : Bytes → Option F) (nF nL : Int) : Bytes → Example F → Prop
  | label (pre post : List Bytes) (bad : Bytes) (ls : List Int) (str tail : Bytes) :
      str = joinWith 44 (pre ++ bad :: post) → str ≠ [] → 32 ∉ str → 44 ∉ bad → (∀ t ∈ post, 44 ∉ t) →
      All2 (fun t l => WritesInt t l ∧ 0 ≤ l ∧ l < nL) pre ls → ¬ IsLabel nL bad →
      (tail = [] ∨ ∃ rest, tail = 32 :: rest) →
      LeftOver parseFloat nF nL (str ++ tail) { Features := [], Labels := ls ++ List.replicate (post.length + 1) 0 }
  | missing (str : Bytes) (ls : List Int) : 32 ∉ str → WritesLabels nL str ls →
      LeftOver parseFloat nF nL str { Features := [], Labels := ls }
  | feature (str : Bytes) (ls : List Int) (pre post : List Bytes) (bad : Bytes) (ps : List (Pair F)) :
      32 ∉ str → WritesLabels nL str ls → WritesFeatures parseFloat nF pre ps → 32 ∉ bad → (∀ t ∈ post, 32 ∉ t) →
      ¬ IsFeature parseFloat nF bad →
      LeftOver parseFloat nF nL (str ++ 32 :: joinWith 32 (pre ++ bad :: post))
        { Features := ps ++ List.replicate (post.length + 1) { Index := 0, Value := GoFloat.zero }, Labels := ls }

/-- The small letters with their capitals. -/
def letterPairs : List (Char × Char) :=
  [('a', 'A'), ('b', 'B'), ('c', 'C'), ('d', 'D'), ('e', 'E'), ('f', 'F'), ('g', 'G'), ('h', 'H'), ('i', 'I'), ('j', 'J'),
   ('k', 'K'), ('l', 'L'), ('m', 'M'), ('n', 'N'), ('o', 'O'), ('p', 'P'), ('q', 'Q'), ('r', 'R'), ('s', 'S'), ('t', 'T'),
   ('u', 'U'), ('v', 'V'), ('w', 'W'), ('x', 'X'), ('y', 'Y'), ('z', 'Z'), ('\u017f', 'S'), ('\u212a', 'K')]

/-- `c` is the letter `C` (a capital) in any case, where the long s and the Kelvin sign count as variants of S and K. -/
def Variant (c C : Char) : Prop := c = C ∨ (c, C) ∈ letterPairs

/-- The same character up to case. -/
def SameLetter (a b : Char) : Prop := a = b ∨ ∃ C, Variant a C ∧ Variant b C

/-- The same key up to case. -/
def SameKey (a b : String) : Prop := All2 SameLetter a.toList b.toList

end Goslide.Spec
