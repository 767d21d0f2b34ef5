import Verif.Proofs.Xcrepo
import Verif.Go.Exact
/-
Properties C31–C36 (dataset/xcrepo).
`parseFloat` is `strconv.ParseFloat(·, 64)`: any partial function.
-/
set_option linter.unusedSectionVars false
namespace Goslide.Props
open Spec Xcrepo
variable {F : Type} [GoFloat F]

theorem xcrepo_header_positive (content : Bytes) (h : (newScanner content : Scanner F).Err = none) :
    0 < (newScanner content : Scanner F).totalPoints ∧ 0 < (newScanner content : Scanner F).numFeatures ∧
    0 < (newScanner content : Scanner F).numLabels := by
  by_cases hc : content = []
  · subst hc; rw [newScanner_empty] at h; simp [Scanner.Err] at h
  · by_cases hl : maxTokenSize ≤ (takeLine content).length
    · rw [newScanner_long content hc hl] at h
      exact absurd ((Err_none_iff _).mp h).2 (by simp)
    · rw [newScanner_line content hc (by omega)] at h ⊢
      by_cases hw : ∃ a b c, WritesHeader (dropCR (takeLine content)) a b c
      · obtain ⟨a, b, c, hw⟩ := hw
        rw [headerOn_good _ _ a b c hw]
        exact ⟨hw.1, hw.2.1, hw.2.2.1⟩
      · rw [headerOn_bad _ _ hw] at h
        simp [Scanner.Err] at h

/-- C31. Whatever the input and after any number of calls: when `Scan` returns true, the header counts
are positive and the example has at least one feature, with every feature index and every label within
the bounds announced by the header. -/
theorem C31_bounds (parseFloat : Bytes → Option F) (content : Bytes) (n : Nat) (s' : Scanner F)
    (h : scan parseFloat (scanN parseFloat n (newScanner content)) = (true, s')) :
    0 < s'.totalPoints ∧ 0 < s'.numFeatures ∧ 0 < s'.numLabels ∧
    s'.ex.Features ≠ [] ∧
    (∀ p ∈ s'.ex.Features, 0 ≤ p.Index ∧ p.Index < s'.numFeatures) ∧
    (∀ l ∈ s'.ex.Labels, 0 ≤ l ∧ l < s'.numLabels) := by
  have hpos := scanN_inv parseFloat
    (fun s => s.Err = none → 0 < s.totalPoints ∧ 0 < s.numFeatures ∧ 0 < s.numLabels) (by
      intro s hs
      obtain ⟨h1, h2, h3⟩ := scan_counts parseFloat s
      rcases scan_cases parseFloat s with ⟨he, h⟩ | ⟨he, -, h⟩ | ⟨he, -, -, h⟩ | ⟨he, -, -, e, -, h⟩ | ⟨he, -, -, e, x, -, h⟩
      · intro hn
        rw [h] at hn
        exact absurd hn he
      all_goals intro _; rw [h1, h2, h3]; exact hs he)
    n (newScanner content) (xcrepo_header_positive content)
  generalize scanN parseFloat n (newScanner content) = s at h hpos
  rcases scan_cases parseFloat s with ⟨-, h'⟩ | ⟨-, -, h'⟩ | ⟨-, -, -, h'⟩ | ⟨he, -, -, e, hres, h'⟩ | ⟨-, -, -, e, x, -, h'⟩
  · rw [h] at h'; simp at h'
  · rw [h] at h'; simp at h'
  · rw [h] at h'; simp at h'
  · rw [h, Prod.mk.injEq] at h'
    obtain ⟨-, rfl⟩ := h'
    obtain ⟨p1, p2, p3⟩ := hpos he
    refine ⟨p1, p2, p3, ?_⟩
    have ho := (outcome_iff parseFloat s.numFeatures s.numLabels _ _).mpr hres
    show e.Features ≠ [] ∧ (∀ p ∈ e.Features, 0 ≤ p.Index ∧ p.Index < s.numFeatures) ∧
      (∀ l ∈ e.Labels, 0 ≤ l ∧ l < s.numLabels)
    generalize dropCR (takeLine s.buf.rest) = line at ho
    cases ho with
    | ok str toks _ h32 hl hne hf =>
      refine ⟨?_, ?_, ?_⟩
      · intro hnil
        have := all2_length hf
        rw [hnil, List.length_nil] at this
        exact hne (List.length_eq_zero_iff.mp this)
      · intro p hp
        obtain ⟨t, -, ht⟩ := all2_right hf p hp
        exact ht.2.2
      · intro l hlm
        rcases hl with ⟨-, hl⟩ | ⟨toks, -, -, hl⟩
        · rw [hl] at hlm; simp at hlm
        · obtain ⟨t, -, ht⟩ := all2_right hl l hlm
          exact ht.2
  · rw [h] at h'; simp at h'

/-- A toy `ParseFloat` for the examples: integers only. -/
def toyParse (b : Bytes) : Option Rat := (atoi b).map (fun n => (n : Rat))

-- a header, an example with two labels, one without labels (CRLF line end)
example : let s := (newScanner (bytes "2 5 3\n0,2 1:7 4:-2\r\n 0:1") : Scanner Rat)
    (scan toyParse s).1 = true ∧ (scan toyParse s).2.ex = ⟨[⟨1, 7⟩, ⟨4, -2⟩], [0, 2]⟩ ∧
    (scan toyParse (scanN toyParse 1 s)).1 = true ∧ (scan toyParse (scanN toyParse 1 s)).2.ex = ⟨[⟨0, 1⟩], []⟩ ∧
    (scan toyParse (scanN toyParse 2 s)).1 = false ∧ (scan toyParse (scanN toyParse 2 s)).2.Err = none := by
  decide +kernel

/-- C32. Once `Err()` is non-nil it stays the same and every further `Scan` returns false, leaves
`LineNumber()` and empties `Example()`. -/
theorem C32_sticky (parseFloat : Bytes → Option F) (s : Scanner F) (e : Xcrepo.Err) (h : s.Err = some e) (n : Nat) :
    let s' := scanN parseFloat n s
    s'.Err = some e ∧ s'.lineNumber = s.lineNumber ∧
    (scan parseFloat s').1 = false ∧ (scan parseFloat s').2.Err = some e ∧
    (scan parseFloat s').2.lineNumber = s.lineNumber ∧
    (scan parseFloat s').2.ex = { Features := [], Labels := [] } := by
  have key := scanN_inv parseFloat (fun s' => s'.Err = some e ∧ s'.lineNumber = s.lineNumber) (by
    intro s' ⟨h1, h2⟩
    rw [scan_err parseFloat s' (by rw [h1]; simp)]
    exact ⟨h1, h2⟩) n s ⟨h, rfl⟩
  dsimp only
  obtain ⟨h1, h2⟩ := key
  rw [scan_err parseFloat _ (by rw [h1]; simp)]
  exact ⟨h1, h2, rfl, h1, h2, rfl⟩

/-- C32, end of input: once `Scan` has returned false with a nil error, it goes on returning false with
a nil error and an empty example. -/
theorem C32_sticky_eof (parseFloat : Bytes → Option F) (s s1 : Scanner F) (h : scan parseFloat s = (false, s1))
    (he : s1.Err = none) (n : Nat) :
    let s' := scanN parseFloat n s1
    (scan parseFloat s').1 = false ∧ (scan parseFloat s').2.Err = none ∧
    (scan parseFloat s').2.lineNumber = s1.lineNumber ∧
    (scan parseFloat s').2.ex = { Features := [], Labels := [] } := by
  have h0 : s1.buf.rest = [] := by
    rcases scan_cases parseFloat s with ⟨hn, h'⟩ | ⟨-, hr, h'⟩ | ⟨-, -, -, h'⟩ | ⟨-, -, -, e, -, h'⟩ | ⟨-, -, -, e, x, -, h'⟩ <;>
      rw [h, Prod.mk.injEq] at h' <;> obtain ⟨hb, rfl⟩ := h'
    · exact absurd he hn
    · exact hr
    · exact absurd ((Err_none_iff _).mp he).2 (by simp)
    · simp at hb
    · simp [Scanner.Err] at he
  have key := scanN_inv parseFloat
    (fun s' => s'.Err = none ∧ s'.buf.rest = [] ∧ s'.lineNumber = s1.lineNumber) (by
      intro s' ⟨h1, h2, h3⟩
      rw [scan_eof parseFloat s' h1 h2]
      exact ⟨h1, h2, h3⟩) n s1 ⟨he, h0, rfl⟩
  obtain ⟨h1, h2, h3⟩ := key
  dsimp only
  rw [scan_eof parseFloat _ h1 h2]
  exact ⟨rfl, h1, h3, rfl⟩

example : let s := (scan toyParse (newScanner (bytes "2 5 3\n7 1:1\n0 1:1\n") : Scanner Rat)).2
    s.Err = some .labelOutOfBounds ∧ s.lineNumber = 2 := by decide +kernel

/-- C35, header. The first line decides: if it writes three positive integers, `NewScanner` succeeds
with these counts; otherwise the error is `ErrMalformedHeader`. The input after the first line is
irrelevant. -/
theorem C35_header (content line rest : Bytes) (n : Nat) (h : FirstLine content n line rest) (hn : n < 65536) :
    (∀ a b c, WritesHeader line a b c → (newScanner content : Scanner F).Err = none ∧
      (newScanner content : Scanner F).totalPoints = a ∧ (newScanner content : Scanner F).numFeatures = b ∧
      (newScanner content : Scanner F).numLabels = c ∧ (newScanner content : Scanner F).buf.rest = rest) ∧
    ((¬ ∃ a b c, WritesHeader line a b c) → (newScanner content : Scanner F).Err = some .malformedHeader) := by
  obtain ⟨h1, h2, h3, h4⟩ := firstLine_spec h
  rw [newScanner_line content h1 (by rw [h2]; exact hn), h3]
  constructor
  · intro a b c hw
    rw [headerOn_good _ _ a b c hw]
    exact ⟨rfl, rfl, rfl, rfl, h4⟩
  · intro hw
    rw [headerOn_bad _ _ hw]; rfl

/-- C35, header: an empty input is a malformed header as well. -/
theorem C35_empty_input : (newScanner [] : Scanner F).Err = some .malformedHeader := rfl

example : WritesHeader (bytes "2 +5 3") 2 5 3 := by
  refine ⟨by decide, by decide, by decide, bytes "2", bytes "+5", bytes "3", by decide, ?_, ?_, ?_⟩ <;>
    rw [← atoi_iff] <;> decide

/-- C35. Every line has exactly one outcome: an example or one of the errors, determined by the first
offending token (`LineOutcome`). -/
theorem C35_outcome_unique (parseFloat : Bytes → Option F) (nF nL : Int) (line : Bytes) :
    ∃ o, LineOutcome parseFloat nF nL line o ∧ ∀ o', LineOutcome parseFloat nF nL line o' → o' = o := by
  obtain ⟨o, ho⟩ := outcome_total parseFloat nF nL line
  refine ⟨o, ho, ?_⟩
  intro o' ho'
  rw [outcome_iff] at ho ho'
  rw [← ho, ← ho']

/-- C35 and C36 (lines of at most 65535 bytes). If no error has occurred yet and the unread input starts
with such a line, `Scan` delivers exactly the outcome of the whole line: true with its example, or false
with its error; the rest of the input stays unread. -/
theorem C35_line (parseFloat : Bytes → Option F) (s : Scanner F) (n : Nat) (line rest : Bytes)
    (o : Except Xcrepo.Err (Example F)) (he : s.Err = none) (hline : FirstLine s.buf.rest n line rest) (hn : n < 65536)
    (ho : LineOutcome parseFloat s.numFeatures s.numLabels line o) :
    match o with
    | .ok e => (scan parseFloat s).1 = true ∧ (scan parseFloat s).2.ex = e ∧ (scan parseFloat s).2.Err = none ∧
        (scan parseFloat s).2.buf.rest = rest
    | .error e => (scan parseFloat s).1 = false ∧ (scan parseFloat s).2.Err = some e ∧
        (scan parseFloat s).2.buf.rest = rest := by
  obtain ⟨h1, h2, h3, h4⟩ := firstLine_spec hline
  have hsc := scan_line parseFloat s he h1 (by rw [h2]; exact hn)
  rw [h3, (outcome_iff _ _ _ _ _).mp ho] at hsc
  cases o with
  | ok e =>
    dsimp only at hsc ⊢
    rw [hsc]
    exact ⟨rfl, rfl, he, h4⟩
  | error e =>
    dsimp only at hsc ⊢
    obtain ⟨x, hx⟩ := hsc
    rw [hx]
    exact ⟨rfl, rfl, h4⟩

-- one line for each error (5 features, 3 labels)
example : [bytes "0,x 1:1", bytes "0,3 1:1", bytes "0,1", bytes "", bytes "0 1:1:1", bytes "0  1:1", bytes "0 9:z",
      bytes "0 1:z", bytes ", 1:1", bytes "0 -0:+4"].map
    (fun l => (scan toyParse { (newScanner (bytes "2 5 3\n") : Scanner Rat) with
        buf := { rest := l ++ [10], tooLong := false, text := [] } }).2.Err) =
    [some .malformedLabels, some .labelOutOfBounds, some .missingFeatures, some .missingFeatures,
     some .malformedFeatures, some .malformedFeatures, some .featureIndexOutOfBounds, some .malformedFeatures,
     some .malformedLabels, none] := by decide +kernel

/-- C36. A line with 65536 or more bytes before its newline makes `Scan` return false with
`ErrTooLong`, with no example (nothing is truncated). -/
theorem C36_too_long (parseFloat : Bytes → Option F) (s : Scanner F) (n : Nat) (line rest : Bytes)
    (he : s.Err = none) (hline : FirstLine s.buf.rest n line rest) (hn : 65536 ≤ n) :
    (scan parseFloat s).1 = false ∧ (scan parseFloat s).2.Err = some .tooLong ∧
    (scan parseFloat s).2.ex = { Features := [], Labels := [] } := by
  obtain ⟨h1, h2, h3, h4⟩ := firstLine_spec hline
  rw [scan_long parseFloat s he h1 (by rw [h2]; exact hn)]
  refine ⟨rfl, ?_, rfl⟩
  unfold Scanner.Err
  rw [((Err_none_iff s).mp he).1]
  rfl

/-- C36, header. An over-long header is rejected as well. -/
theorem C36_too_long_header (content : Bytes) (n : Nat) (line rest : Bytes)
    (hline : FirstLine content n line rest) (hn : 65536 ≤ n) :
    (newScanner content : Scanner F).Err = some .tooLong := by
  obtain ⟨h1, h2, h3, h4⟩ := firstLine_spec hline
  rw [newScanner_long content h1 (by rw [h2]; exact hn)]
  rfl

/-- Every non-empty unread input starts with a line, so C35 and C36 together cover every `Scan`. -/
theorem C36_lines_exist (content : Bytes) (h : content ≠ []) : ∃ n line rest, FirstLine content n line rest :=
  ⟨_, _, _, firstLine_total content h⟩

-- the limit is met exactly: 65535 bytes pass (with an error about their content), 65536 do not
example : FirstLine (List.replicate 65536 97 ++ 10 :: bytes "0 1:1") 65536 (List.replicate 65536 97) (bytes "0 1:1") := by
  have h := FirstLine.lf (List.replicate 65536 97) (bytes "0 1:1")
    (fun hm => absurd (List.eq_of_mem_replicate hm) (by decide))
    (fun hl => absurd (List.eq_of_mem_replicate (List.mem_of_getLast? hl)) (by decide))
  rw [List.length_replicate] at h
  exact h

/-- C34 fails for over-long lines: such a header leaves `LineNumber()` at 0, and such a line leaves it at
the number of the line before it. -/
theorem C34_too_long_not_counted (parseFloat : Bytes → Option F) :
    (∀ (content : Bytes) (n : Nat) (line rest : Bytes), FirstLine content n line rest → 65536 ≤ n →
      (newScanner content : Scanner F).lineNumber = 0) ∧
    (∀ (s : Scanner F) (n : Nat) (line rest : Bytes), s.Err = none → FirstLine s.buf.rest n line rest → 65536 ≤ n →
      (scan parseFloat s).2.Err = some .tooLong ∧ (scan parseFloat s).2.lineNumber = s.lineNumber) := by
  constructor
  · intro content n line rest h hn
    obtain ⟨h1, h2, h3, h4⟩ := firstLine_spec h
    rw [newScanner_long content h1 (by rw [h2]; exact hn)]
    rfl
  · intro s n line rest he h hn
    refine ⟨(C36_too_long parseFloat s n line rest he h hn).2.1, ?_⟩
    obtain ⟨h1, h2, h3, h4⟩ := firstLine_spec h
    rw [scan_long parseFloat s he h1 (by rw [h2]; exact hn)]

theorem raw_line (l : Bytes) (h : l ≠ []) :
    ∃ raw, l = raw ++ dropLine l ∧ IsRawLine (dropLine l = []) raw := by
  rcases line_split l with ⟨h1, h2, h3⟩ | h1
  · exact ⟨l, by rw [h3]; simp, Or.inr ⟨h3, h, h1⟩⟩
  · exact ⟨takeLine l ++ [10], by rw [List.append_assoc]; exact h1, Or.inl ⟨_, rfl, takeLine_free l⟩⟩

/-- C34. On a non-empty input, as long as the error is not `ErrTooLong`, `LineNumber()` is the number of
lines consumed so far: the input is that many lines followed by the unread part; and a line that causes a
parse error is the last of them. Missing: `ErrTooLong`, for which the claim is false
(`C34_too_long_not_counted`). -/
theorem C34_line_number_partial (parseFloat : Bytes → Option F) (content : Bytes) (hc : content ≠ []) (n : Nat) :
    let s := scanN parseFloat n (newScanner content : Scanner F)
    s.Err ≠ some .tooLong →
    ∃ lines : List Bytes, lines.length = s.lineNumber ∧ 1 ≤ s.lineNumber ∧
      content = lines.flatten ++ s.buf.rest ∧
      (∀ l ∈ lines.dropLast, IsRawLine False l) ∧ (∀ l ∈ lines.getLast?, IsRawLine (s.buf.rest = []) l) := by
  have key := scanN_inv parseFloat (fun s => s.buf.tooLong = false →
    ∃ lines : List Bytes, lines.length = s.lineNumber ∧ 1 ≤ s.lineNumber ∧
      content = lines.flatten ++ s.buf.rest ∧
      (∀ l ∈ lines.dropLast, IsRawLine False l) ∧ (∀ l ∈ lines.getLast?, IsRawLine (s.buf.rest = []) l)) (by
    intro s hs
    have hadv : s.buf.tooLong = false → s.buf.rest ≠ [] →
        ∃ lines : List Bytes, lines.length = s.lineNumber + 1 ∧ 1 ≤ s.lineNumber + 1 ∧
          content = lines.flatten ++ dropLine s.buf.rest ∧
          (∀ l ∈ lines.dropLast, IsRawLine False l) ∧
          (∀ l ∈ lines.getLast?, IsRawLine (dropLine s.buf.rest = []) l) := by
      intro ht hr
      obtain ⟨lines, h1, h2, h3, h4, h5⟩ := hs ht
      obtain ⟨raw, h6, h7⟩ := raw_line s.buf.rest hr
      refine ⟨lines ++ [raw], by simp [h1], by omega, ?_, ?_, ?_⟩
      · rw [List.flatten_append, List.append_assoc]
        simp only [List.flatten_cons, List.flatten_nil, List.append_nil]
        rw [← h6]; exact h3
      · rw [List.dropLast_concat]
        intro l hl
        by_cases hmem : l ∈ lines.dropLast
        · exact h4 l hmem
        · have hne : lines ≠ [] := by intro e; rw [e] at hl; simp at hl
          have hlast : l = lines.getLast hne := by
            rw [← List.dropLast_concat_getLast hne] at hl
            rcases List.mem_append.mp hl with hl | hl
            · exact absurd hl hmem
            · simpa using hl
          rcases h5 l (by rw [List.getLast?_eq_some_getLast hne, hlast]; rfl) with h8 | h8
          · exact Or.inl h8
          · exact absurd h8.1 hr
      · intro l hl
        rw [List.getLast?_concat] at hl
        simp only [Option.mem_def, Option.some.injEq] at hl
        subst hl
        exact h7
    rcases scan_cases parseFloat s with ⟨-, h⟩ | ⟨-, -, h⟩ | ⟨-, -, -, h⟩ | ⟨he, hr, -, e, -, h⟩ | ⟨he, hr, -, e, x, -, h⟩ <;> rw [h]
    · exact hs
    · exact hs
    · intro hf; simp at hf
    · intro ht; exact hadv ht hr
    · intro ht; exact hadv ht hr) n (newScanner content : Scanner F) (by
    by_cases hl : maxTokenSize ≤ (takeLine content).length
    · rw [newScanner_long content hc hl]; intro h; simp at h
    · intro _
      obtain ⟨raw, h6, h7⟩ := raw_line content hc
      have hb : (newScanner content : Scanner F).buf.rest = dropLine content ∧ (newScanner content : Scanner F).lineNumber = 1 := by
        rw [newScanner_line content hc (by omega)]
        by_cases hw : ∃ a b c, WritesHeader (dropCR (takeLine content)) a b c
        · obtain ⟨a, b, c, hw⟩ := hw
          rw [headerOn_good _ _ a b c hw]; exact ⟨rfl, rfl⟩
        · rw [headerOn_bad _ _ hw]; exact ⟨rfl, rfl⟩
      rw [hb.1, hb.2]
      exact ⟨[raw], rfl, by omega, by simpa using h6, by simp, by simpa using h7⟩)
  dsimp only
  intro hne
  apply key
  by_cases ht : (scanN parseFloat n (newScanner content : Scanner F)).buf.tooLong = true
  · exfalso
    have : ∀ s : Scanner F, s.buf.tooLong = true → s.Err ≠ none := by
      intro s hs hn
      rw [((Err_none_iff s).mp hn).2] at hs; simp at hs
    -- `tooLong` and a parse error never occur together
    have excl := scanN_inv parseFloat (fun s : Scanner F => s.buf.tooLong = true → s.err = none) (by
      intro s hs
      rcases scan_cases parseFloat s with ⟨-, h⟩ | ⟨-, -, h⟩ | ⟨he, -, -, h⟩ | ⟨he, hr, -, e, -, h⟩ | ⟨he, hr, -, e, x, -, h⟩ <;> rw [h]
      · exact hs
      · exact hs
      · intro _; exact ((Err_none_iff s).mp he).1
      · intro _; exact ((Err_none_iff s).mp he).1
      · intro ht; exact absurd ht (by rw [show (advance s).buf.tooLong = s.buf.tooLong from rfl, ((Err_none_iff s).mp he).2]; simp))
      n (newScanner content : Scanner F) (by
        by_cases hl : maxTokenSize ≤ (takeLine content).length
        · rw [newScanner_long content hc hl]; intro _; rfl
        · intro ht
          rw [newScanner_line content hc (by omega)] at ht
          exfalso
          by_cases hw : ∃ a b c, WritesHeader (dropCR (takeLine content)) a b c
          · obtain ⟨a, b, c, hw⟩ := hw
            rw [headerOn_good _ _ a b c hw] at ht; simp [advance, start] at ht
          · rw [headerOn_bad _ _ hw] at ht; simp [advance, start] at ht)
    apply hne
    unfold Scanner.Err
    rw [excl ht, ht]
    rfl
  · simpa using ht

/-- C34, step by step: 1 after `NewScanner`, and one more for each line handed to parsing (`Scan` returned
true, or set an error other than `ErrTooLong`). Same exception. -/
theorem C34_increments_partial (parseFloat : Bytes → Option F) :
    (∀ content, (newScanner content : Scanner F).Err ≠ some .tooLong → (newScanner content : Scanner F).lineNumber = 1) ∧
    (∀ s : Scanner F, (scan parseFloat s).1 = true → (scan parseFloat s).2.lineNumber = s.lineNumber + 1) ∧
    (∀ (s : Scanner F) (e : Xcrepo.Err), s.Err = none → (scan parseFloat s).2.Err = some e → e ≠ .tooLong →
      (scan parseFloat s).2.lineNumber = s.lineNumber + 1) := by
  refine ⟨?_, ?_, ?_⟩
  · intro content h
    by_cases hc : content = []
    · subst hc; rfl
    · by_cases hl : maxTokenSize ≤ (takeLine content).length
      · rw [newScanner_long content hc hl] at h; exact absurd rfl h
      · rw [newScanner_line content hc (by omega)]
        by_cases hw : ∃ a b c, WritesHeader (dropCR (takeLine content)) a b c
        · obtain ⟨a, b, c, hw⟩ := hw
          rw [headerOn_good _ _ a b c hw]; rfl
        · rw [headerOn_bad _ _ hw]; rfl
  · intro s h
    rcases scan_cases parseFloat s with ⟨-, h'⟩ | ⟨-, -, h'⟩ | ⟨-, -, -, h'⟩ | ⟨-, -, -, e, -, h'⟩ | ⟨-, -, -, e, x, -, h'⟩ <;>
      rw [h'] at h ⊢
    · simp at h
    · simp at h
    · simp at h
    · rfl
    · simp at h
  · intro s e he h hne
    rcases scan_cases parseFloat s with ⟨hn, h'⟩ | ⟨-, -, h'⟩ | ⟨-, -, -, h'⟩ | ⟨-, -, -, e, -, h'⟩ | ⟨-, -, -, e, x, -, h'⟩ <;>
      rw [h'] at h ⊢
    · exact absurd he hn
    · have : s.Err = some e := h
      rw [he] at this; simp at this
    · exfalso
      unfold Scanner.Err at h
      rw [((Err_none_iff s).mp he).1] at h
      simp at h
      exact hne h.symm
    · rfl
    · rfl

example : let s := scanN toyParse 2 (newScanner (bytes "2 5 3\n0 1:1\n1 9:1\n0 1:1\n") : Scanner Rat)
    s.Err = some .featureIndexOutOfBounds ∧ s.lineNumber = 3 ∧ s.buf.rest = bytes "0 1:1\n" := by decide +kernel

/-- The byte conditions on printed values: no separator, no line end. -/
abbrev PlainToken (b : Bytes) : Prop := 32 ∉ b ∧ 58 ∉ b ∧ 10 ∉ b ∧ 13 ∉ b

theorem showExample_outcome (parseFloat : Bytes → Option F) (showFloat : F → Bytes) (nF nL : Nat)
    (hF : nF < 2 ^ 63) (hL : nL < 2 ^ 63) (e : Example F) (hne : e.Features ≠ [])
    (hf : ∀ p ∈ e.Features, 0 ≤ p.Index ∧ p.Index < nF ∧ parseFloat (showFloat p.Value) = some p.Value ∧
      PlainToken (showFloat p.Value))
    (hl : ∀ l ∈ e.Labels, 0 ≤ l ∧ l < (nL : Int)) :
    LineOutcome parseFloat nF nL (showExample showFloat e) (.ok e) ∧ showExample showFloat e ≠ [] ∧
    10 ∉ showExample showFloat e ∧ 13 ∉ showExample showFloat e := by
  have hlab : ∀ l ∈ e.Labels, WritesInt (showNat l.toNat) l := by
    intro l hlm
    have := hl l hlm
    have hw := showNat_writes l.toNat (by omega)
    rwa [Int.toNat_of_nonneg this.1] at hw
  have hidx : ∀ p ∈ e.Features, WritesInt (showNat p.Index.toNat) p.Index := by
    intro p hp
    have := hf p hp
    have hw := showNat_writes p.Index.toNat (by omega)
    rwa [Int.toNat_of_nonneg this.1] at hw
  have hfree : ∀ c : UInt8, (c.toNat < 43 ∨ 58 < c.toNat) → c ≠ 32 →
      (∀ p ∈ e.Features, c ∉ showFloat p.Value) → c ∉ showExample showFloat e := by
    intro c hc h32 hv hm
    unfold showExample at hm
    rw [List.mem_append, List.mem_cons] at hm
    rcases hm with hm | hm | hm
    · rcases mem_joinWith _ _ _ hm with hm | ⟨t, ht, hm⟩
      · subst hm; revert hc; decide
      · obtain ⟨l, hl', rfl⟩ := List.mem_map.mp ht
        exact (hlab l hl').not_mem c (by omega) hm
    · exact h32 hm
    · rcases mem_joinWith _ _ _ hm with hm | ⟨t, ht, hm⟩
      · exact h32 hm
      · obtain ⟨p, hp, rfl⟩ := List.mem_map.mp ht
        unfold showFeature at hm
        rw [List.mem_append, List.mem_cons] at hm
        rcases hm with hm | hm | hm
        · exact (hidx p hp).not_mem c (by omega) hm
        · subst hm; revert hc; decide
        · exact hv p hp hm
  refine ⟨?_, ?_, hfree 10 (by decide) (by decide) (fun p hp => (hf p hp).2.2.2.2.2.1),
    hfree 13 (by decide) (by decide) (fun p hp => (hf p hp).2.2.2.2.2.2)⟩
  · unfold showExample
    apply LineOutcome.ok
    · intro hm
      rcases mem_joinWith _ _ _ hm with hm | ⟨t, ht, hm⟩
      · exact absurd hm (by decide)
      · obtain ⟨l, hl', rfl⟩ := List.mem_map.mp ht
        exact (hlab l hl').not_mem 32 (by decide) hm
    · by_cases h0 : e.Labels = []
      · exact Or.inl ⟨by rw [h0]; rfl, h0⟩
      · refine Or.inr ⟨e.Labels.map (fun l => showNat l.toNat), by simpa using h0, rfl, ?_⟩
        have := all2_map (R := fun t l => WritesInt t l ∧ 0 ≤ l ∧ l < (nL : Int))
          (fun l : Int => showNat l.toNat) id e.Labels (fun l hm => ⟨hlab l hm, hl l hm⟩)
        rwa [List.map_id] at this
    · simpa using hne
    · have := all2_map (R := fun t p => 32 ∉ t ∧ WritesFeature parseFloat t p ∧ 0 ≤ p.Index ∧ p.Index < (nF : Int))
          (showFeature showFloat) id e.Features (by
            intro p hp
            obtain ⟨h1, h2, h3, h4, h5, h6, h7⟩ := hf p hp
            refine ⟨?_, ⟨_, _, rfl, h5, hidx p hp, h3⟩, h1, h2⟩
            unfold showFeature
            rw [List.mem_append, List.mem_cons, not_or, not_or]
            exact ⟨(hidx p hp).not_mem 32 (by decide), by decide, h4⟩)
      rwa [List.map_id] at this
  · unfold showExample; simp

theorem firstLine_of (line eol rest : Bytes) (hne : line ≠ []) (h10 : 10 ∉ line) (h13 : 13 ∉ line)
    (heol : IsEol eol ∨ (eol = [] ∧ rest = [])) (hlen : line.length + eol.length ≤ 65536) :
    ∃ n, FirstLine (line ++ eol ++ rest) n line rest ∧ n < 65536 ∨
      (FirstLine (line ++ eol ++ rest) n line rest ∧ n = 65536 ∧ eol = []) := by
  have hlast : line.getLast? ≠ some 13 := fun h => h13 (List.mem_of_getLast? h)
  rcases heol with (rfl | rfl) | ⟨rfl, rfl⟩
  · refine ⟨line.length, Or.inl ⟨?_, by simp at hlen; omega⟩⟩
    have := FirstLine.lf line rest h10 hlast
    simpa using this
  · refine ⟨line.length + 1, Or.inl ⟨?_, by simp at hlen; omega⟩⟩
    have := FirstLine.crlf line rest h10
    simpa using this
  · refine ⟨line.length, ?_⟩
    have := FirstLine.last line hne h10 hlast
    simp only [List.append_nil, List.length_nil, Nat.add_zero] at *
    by_cases h : line.length = 65536
    · exact Or.inr ⟨this, h, trivial⟩
    · exact Or.inl ⟨this, by omega⟩

/-- C33. Print a header and any examples within its bounds (labels separated by commas, features
`index:value` separated by single spaces), one per line, with LF or CRLF line ends, the last one with or
without line end, every line below the 64 KiB limit: scanning delivers exactly these examples in order, and
then false with a nil error. `showFloat` is any way to print the values that `ParseFloat` reads back. -/
theorem C33_roundtrip (parseFloat : Bytes → Option F) (showFloat : F → Bytes) (points nF nL : Nat)
    (hP : 0 < points ∧ points < 2 ^ 63) (hF : 0 < nF ∧ nF < 2 ^ 63) (hL : 0 < nL ∧ nL < 2 ^ 63)
    (es : List (Example F)) (lines : List (Bytes × Bytes))
    (hes : ∀ e ∈ es, e.Features ≠ [] ∧
      (∀ p ∈ e.Features, 0 ≤ p.Index ∧ p.Index < nF ∧ parseFloat (showFloat p.Value) = some p.Value ∧
        PlainToken (showFloat p.Value)) ∧
      (∀ l ∈ e.Labels, 0 ≤ l ∧ l < (nL : Int)))
    (hlines : lines.map (·.1) = showHeader points nF nL :: es.map (showExample showFloat))
    (heols : ∀ l ∈ lines.dropLast, IsEol l.2) (hlast : ∀ l ∈ lines.getLast?, IsEol l.2 ∨ l.2 = [])
    (hlen : ∀ l ∈ lines, l.1.length < 65535) :
    let s := (newScanner (fileOf lines) : Scanner F)
    s.Err = none ∧ s.totalPoints = points ∧ s.numFeatures = nF ∧ s.numLabels = nL ∧
    ∃ s', Delivers (scan parseFloat) Scanner.ex s es s' ∧
      (scan parseFloat s').1 = false ∧ (scan parseFloat s').2.Err = none := by
  have body : ∀ (es : List (Example F)) (lines : List (Bytes × Bytes)) (s : Scanner F),
      (∀ e ∈ es, e.Features ≠ [] ∧
        (∀ p ∈ e.Features, 0 ≤ p.Index ∧ p.Index < nF ∧ parseFloat (showFloat p.Value) = some p.Value ∧
          PlainToken (showFloat p.Value)) ∧
        (∀ l ∈ e.Labels, 0 ≤ l ∧ l < (nL : Int))) →
      lines.map (·.1) = es.map (showExample showFloat) →
      (∀ l ∈ lines.dropLast, IsEol l.2) → (∀ l ∈ lines.getLast?, IsEol l.2 ∨ l.2 = []) →
      (∀ l ∈ lines, l.1.length < 65535) →
      s.Err = none → s.numFeatures = nF → s.numLabels = nL → s.buf.rest = fileOf lines →
      ∃ s', Delivers (scan parseFloat) Scanner.ex s es s' ∧
        (scan parseFloat s').1 = false ∧ (scan parseFloat s').2.Err = none := by
    intro es
    induction es with
    | nil =>
      intro lines s _ hl _ _ _ he _ _ hr
      have : lines = [] := by simpa using hl
      subst this
      refine ⟨s, Delivers.done s, ?_⟩
      rw [scan_eof parseFloat s he hr]
      exact ⟨rfl, he⟩
    | cons e es ih =>
      intro lines s hes hl heols hlast hlen he hnF hnL hr
      obtain ⟨⟨line, eol⟩, lines', rfl⟩ : ∃ x xs, lines = x :: xs := by
        cases lines with
        | nil => simp at hl
        | cons x xs => exact ⟨x, xs, rfl⟩
      simp only [List.map_cons, List.cons.injEq] at hl
      obtain ⟨hl1, hl2⟩ := hl
      obtain ⟨h1, h2, h3⟩ := hes e (by simp)
      obtain ⟨ho, hne, h10, h13⟩ := showExample_outcome parseFloat showFloat nF nL hF.2 hL.2 e h1 h2 h3
      rw [← hl1] at ho hne h10 h13
      have hlen1 := hlen (line, eol) (by simp)
      have heol : IsEol eol ∨ (eol = [] ∧ fileOf lines' = []) := by
        cases lines' with
        | nil =>
          rcases hlast (line, eol) (by simp) with h | h
          · exact Or.inl h
          · exact Or.inr ⟨h, rfl⟩
        | cons x xs => exact Or.inl (heols (line, eol) (by simp))
      have hel : eol.length ≤ 2 := by
        rcases heol with (h | h) | ⟨h, -⟩ <;> rw [h] <;> decide
      obtain ⟨n, hfl⟩ := firstLine_of line eol (fileOf lines') hne h10 h13 heol (by dsimp only at hlen1; omega)
      have hrest : s.buf.rest = line ++ eol ++ fileOf lines' := by
        rw [hr]; simp [fileOf]
      have hfl' : FirstLine s.buf.rest n line (fileOf lines') ∧ n < 65536 := by
        rw [hrest]
        rcases hfl with h | ⟨h, h', h''⟩
        · exact h
        · exfalso
          obtain ⟨-, h4, h5, -⟩ := firstLine_spec h
          subst h''
          rw [List.append_nil] at h4
          rcases heol with (h6 | h6) | ⟨-, h6⟩
          · simp at h6
          · simp at h6
          · rw [h6, List.append_nil, takeLine_all _ h10] at h4
            dsimp only at hlen1
            omega
      have hsc := C35_line parseFloat s n line (fileOf lines') (.ok e) he hfl'.1 hfl'.2 (by rw [hnF, hnL]; exact ho)
      dsimp only at hsc
      obtain ⟨c1, c2, c3, c4⟩ := hsc
      obtain ⟨k1, k2, k3⟩ := scan_counts parseFloat s
      obtain ⟨s', hd, hfin⟩ := ih lines' (scan parseFloat s).2 (fun e he => hes e (by simp [he])) hl2
        (by
          intro l hlm
          cases lines' with
          | nil => simp at hlm
          | cons x xs => exact heols l (by rw [List.dropLast_cons_cons]; exact List.mem_cons_of_mem _ hlm))
        (by
          intro l hlm
          cases lines' with
          | nil => simp at hlm
          | cons x xs => exact hlast l (by rw [List.getLast?_cons_cons]; exact hlm))
        (fun l hlm => hlen l (by simp [hlm])) c3 (by rw [k2, hnF]) (by rw [k3, hnL]) c4
      refine ⟨s', ?_, hfin⟩
      rw [← c2]
      exact Delivers.next s _ _ es (Prod.ext c1 rfl) hd
  obtain ⟨⟨line, eol⟩, lines', rfl⟩ : ∃ x xs, lines = x :: xs := by
    cases lines with
    | nil => simp at hlines
    | cons x xs => exact ⟨x, xs, rfl⟩
  simp only [List.map_cons, List.cons.injEq] at hlines
  obtain ⟨hl1, hl2⟩ := hlines
  have hw : WritesHeader line points nF nL := by
    rw [hl1]
    exact ⟨by omega, by omega, by omega, _, _, _, rfl, showNat_writes _ hP.2, showNat_writes _ hF.2, showNat_writes _ hL.2⟩
  have hfree : ∀ c : UInt8, c.toNat < 32 → c ∉ line := by
    intro c hc hm
    rw [hl1] at hm
    unfold showHeader at hm
    rcases mem_joinWith _ _ _ hm with hm | ⟨t, ht, hm⟩
    · subst hm; revert hc; decide
    · simp only [List.mem_cons, List.not_mem_nil, or_false] at ht
      rcases ht with rfl | rfl | rfl
      · exact (showNat_writes _ hP.2).not_mem c (by omega) hm
      · exact (showNat_writes _ hF.2).not_mem c (by omega) hm
      · exact (showNat_writes _ hL.2).not_mem c (by omega) hm
  have hne : line ≠ [] := by rw [hl1]; simp [showHeader, joinWith]
  have h10 := hfree 10 (by decide)
  have hlen1 := hlen (line, eol) (by simp)
  have heol : IsEol eol ∨ (eol = [] ∧ fileOf lines' = []) := by
    cases lines' with
    | nil =>
      rcases hlast (line, eol) (by simp) with h | h
      · exact Or.inl h
      · exact Or.inr ⟨h, rfl⟩
    | cons x xs => exact Or.inl (heols (line, eol) (by simp))
  have hel : eol.length ≤ 2 := by
    rcases heol with (h | h) | ⟨h, -⟩ <;> rw [h] <;> decide
  obtain ⟨n, hfl⟩ := firstLine_of line eol (fileOf lines') hne h10 (hfree 13 (by decide)) heol (by dsimp only at hlen1; omega)
  have hrest : fileOf ((line, eol) :: lines') = line ++ eol ++ fileOf lines' := by simp [fileOf]
  have hfl' : FirstLine (fileOf ((line, eol) :: lines')) n line (fileOf lines') ∧ n < 65536 := by
    rw [hrest]
    rcases hfl with h | ⟨h, h', h''⟩
    · exact h
    · exfalso
      obtain ⟨-, h4, h5, -⟩ := firstLine_spec h
      subst h''
      rw [List.append_nil] at h4
      rcases heol with (h6 | h6) | ⟨-, h6⟩
      · simp at h6
      · simp at h6
      · rw [h6, List.append_nil, takeLine_all _ h10] at h4
        dsimp only at hlen1
        omega
  obtain ⟨c1, c2, c3, c4, c5⟩ := (C35_header (F := F) _ line (fileOf lines') n hfl'.1 hfl'.2).1 _ _ _ hw
  refine ⟨c1, c2, c3, c4, ?_⟩
  exact body es lines' _ hes hl2
    (by
      intro l hlm
      cases lines' with
      | nil => simp at hlm
      | cons x xs => exact heols l (by rw [List.dropLast_cons_cons]; exact List.mem_cons_of_mem _ hlm))
    (by
      intro l hlm
      cases lines' with
      | nil => simp at hlm
      | cons x xs => exact hlast l (by rw [List.getLast?_cons_cons]; exact hlm))
    (fun l hlm => hlen l (by simp [hlm])) c1 c3 c4 c5

-- the printed form, and that printed integers are read back
example : showExample (fun q : Rat => showNat q.num.toNat) ⟨[⟨1, 17⟩, ⟨4, 2⟩], [0, 2]⟩ = bytes "0,2 1:17 4:2" ∧
    toyParse (showNat 17) = some 17 ∧ PlainToken (showNat 17) := by decide +kernel

end Goslide.Props
