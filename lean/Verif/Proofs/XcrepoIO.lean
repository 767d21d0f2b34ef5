import Verif.Proofs.Bufio
namespace Goslide.XcrepoIO
open Spec Xcrepo Bufio
set_option linter.unusedSectionVars false
variable {F : Type} [GoFloat F]

/-- What `Scan` does with the text of a line. -/
def body (pf : Bytes → Option F) (s : Xcrepo.Scanner F) (text : Bytes) : Bool × Xcrepo.Scanner F :=
  match split 32 text with
  | [] => (false, { s with err := some .notEnoughFields })
  | v :: vs =>
    let (ok, s) := parseLabels s v
    if !ok then (false, s) else parseFeatures pf s vs

theorem scan_body (pf : Bytes → Option F) (t : Xcrepo.Scanner F) (b : BufScanner) (h : t.Err = none)
    (hb : bufScan t.buf = (true, b)) (hl : b.tooLong = false) :
    Xcrepo.scan pf t = body pf { t with ex := { Features := [], Labels := [] }, buf := b, lineNumber := t.lineNumber + 1 } b.text := by
  unfold Xcrepo.scan body
  refine (if_neg (fun hn => hn h)).trans ?_
  dsimp only
  rw [hb]
  dsimp only
  rw [if_neg (by rw [hl]; decide)]
  rfl

theorem scan_false (pf : Bytes → Option F) (t : Xcrepo.Scanner F) (b : BufScanner) (h : t.Err = none)
    (hb : bufScan t.buf = (false, b)) :
    Xcrepo.scan pf t = (false, { t with ex := { Features := [], Labels := [] }, buf := b }) := by
  unfold Xcrepo.scan
  refine (if_neg (fun hn => hn h)).trans ?_
  dsimp only
  rw [hb]
  rfl

theorem scanIO_body (pf : Bytes → Option F) (x : Scanner F) (io : Bufio.State) (h : x.Err = none)
    (hb : Bufio.scan x.io = (true, io)) (hl : io.Err = none) :
    scan pf x =
      ((body pf { x.s with ex := { Features := [], Labels := [] }, lineNumber := x.s.lineNumber + 1 } io.token).1,
       { io := io,
         s := (body pf { x.s with ex := { Features := [], Labels := [] }, lineNumber := x.s.lineNumber + 1 } io.token).2 }) := by
  unfold scan
  refine (if_neg (fun hn => hn h)).trans ?_
  dsimp only
  rw [hb]
  dsimp only
  rw [if_neg (by rw [hl]; decide)]
  unfold body
  cases split 32 io.token with
  | nil => rfl
  | cons v vs =>
    dsimp only
    generalize parseLabels _ v = p
    obtain ⟨ok, s⟩ := p
    cases ok <;> rfl

theorem scanIO_stop (pf : Bytes → Option F) (x : Scanner F) (ok : Bool) (io : Bufio.State) (h : x.Err = none)
    (hb : Bufio.scan x.io = (ok, io)) (hl : ok = false ∨ io.Err ≠ none) :
    scan pf x = (false, { io := io, s := { x.s with ex := { Features := [], Labels := [] } } }) := by
  unfold scan
  refine (if_neg (fun hn => hn h)).trans ?_
  dsimp only
  rw [hb]
  dsimp only
  rw [if_pos (by rcases hl with rfl | hl <;> simp_all)]

theorem scanIO_err (pf : Bytes → Option F) (x : Scanner F) (h : x.Err ≠ none) :
    scan pf x = (false, { x with s := { x.s with ex := { Features := [], Labels := [] } } }) := by
  unfold scan
  exact if_pos h

theorem parseLabels_buf (s : Xcrepo.Scanner F) (b : BufScanner) (v : Bytes) :
    parseLabels { s with buf := b } v = ((parseLabels s v).1, { (parseLabels s v).2 with buf := b }) := by
  rw [parseLabels_eq, parseLabels_eq]
  dsimp only
  generalize labelPart s.numLabels v = r
  obtain ⟨ls, err⟩ := r
  cases err <;> rfl

theorem parseFeatures_buf (pf : Bytes → Option F) (s : Xcrepo.Scanner F) (b : BufScanner) (vs : List Bytes) :
    parseFeatures pf { s with buf := b } vs =
      ((parseFeatures pf s vs).1, { (parseFeatures pf s vs).2 with buf := b }) := by
  unfold parseFeatures
  dsimp only
  split
  · rfl
  · generalize featuresLoop pf s.numFeatures [] vs = r
    obtain ⟨fs, err⟩ := r
    cases err <;> rfl

theorem body_buf (pf : Bytes → Option F) (s : Xcrepo.Scanner F) (b : BufScanner) (text : Bytes) :
    body pf { s with buf := b } text = ((body pf s text).1, { (body pf s text).2 with buf := b }) := by
  unfold body
  cases split 32 text with
  | nil => rfl
  | cons v vs =>
    dsimp only
    rw [parseLabels_buf]
    dsimp only
    by_cases h : (parseLabels s v).1 = true
    · rw [if_neg (by rw [h]; decide), if_neg (by rw [h]; decide), parseFeatures_buf]
    · have h' : (parseLabels s v).1 = false := by simpa using h
      rw [if_pos (by rw [h']; decide), if_pos (by rw [h']; decide)]

theorem body_keeps (pf : Bytes → Option F) (s : Xcrepo.Scanner F) (text : Bytes) : (body pf s text).2.buf = s.buf := by
  have := congrArg (fun r => r.2.buf) (body_buf pf s s.buf text)
  exact this

/-- Every line that is refused sets an error. -/
theorem body_false (pf : Bytes → Option F) (s : Xcrepo.Scanner F) (text : Bytes) (h : (body pf s text).1 = false) :
    (body pf s text).2.err ≠ none := by
  unfold body at h ⊢
  generalize split 32 text = w at h ⊢
  cases w with
  | nil => simp
  | cons v vs =>
    dsimp only at h ⊢
    rw [parseLabels_eq] at h ⊢
    generalize labelPart s.numLabels v = r at h ⊢
    obtain ⟨ls, err⟩ := r
    cases err with
    | some e => simp
    | none =>
      dsimp only at h ⊢
      rw [if_neg (by decide)] at h ⊢
      unfold parseFeatures at h ⊢
      split
      · simp
      · rename_i hvs
        rw [if_neg hvs] at h
        dsimp only at h ⊢
        generalize featuresLoop pf s.numFeatures [] vs = r at h ⊢
        obtain ⟨fs, err⟩ := r
        cases err with
        | some e => simp
        | none => simp at h

theorem labelsLoop_err (n : Int) (toks : List Bytes) : ∀ done, (labelsLoop n done toks).2 ≠ some .tooLong := by
  induction toks with
  | nil => intro done; simp [labelsLoop]
  | cons v vs ih =>
    intro done
    rw [labelsLoop]
    split
    · simp
    · split
      · simp
      · exact ih _

theorem featuresLoop_err (pf : Bytes → Option F) (n : Int) (toks : List Bytes) : ∀ done, (featuresLoop pf n done toks).2 ≠ some .tooLong := by
  induction toks with
  | nil => intro done; simp [featuresLoop]
  | cons v vs ih =>
    intro done
    rw [featuresLoop]
    split
    · split
      · simp
      · split
        · simp
        · split
          · simp
          · exact ih _
    · simp

/-- The errors stored by the scanner itself are format errors. -/
theorem body_err (pf : Bytes → Option F) (s : Xcrepo.Scanner F) (text : Bytes) (h : s.err ≠ some .tooLong) :
    (body pf s text).2.err ≠ some .tooLong := by
  unfold body
  cases split 32 text with
  | nil => simp
  | cons v vs =>
    dsimp only
    rw [parseLabels_eq]
    have hl : (labelPart s.numLabels v).2 ≠ some .tooLong := by
      unfold labelPart
      split
      · simp
      · exact labelsLoop_err _ _ _
    generalize labelPart s.numLabels v = r at hl ⊢
    obtain ⟨ls, err⟩ := r
    cases err with
    | some e => simpa using hl
    | none =>
      dsimp only
      rw [if_neg (by decide)]
      unfold parseFeatures
      split
      · simp
      · dsimp only
        have hf := featuresLoop_err pf s.numFeatures vs []
        generalize featuresLoop pf s.numFeatures [] vs = r at hf ⊢
        obtain ⟨fs, err⟩ := r
        cases err with
        | some e => simpa using hf
        | none => exact h

/-- `x` reads in pieces what `t` reads as a whole; `d` is input that `x` does not receive because its reader
fails with the error `e` before. -/
structure Follows (clean : Prop) (d : Bytes) (e : ScanErr) (x : Scanner F) (t : Xcrepo.Scanner F) : Prop where
  same : { x.s with buf := t.buf } = t
  fmt : t.err ≠ some .tooLong
  buf : (t.buf.tooLong = false ∧ Inv clean x.io ∧ rest x.io ++ d = t.buf.rest ∧ ending x.io = e ∧
      (x.io.err = none ∨ x.io.err = some .eof) ∧ (clean ∨ e ≠ .eof ∨ ¬ LongTail (rest x.io))) ∨
    (t.buf.tooLong = true ∧ x.io.err = some .tooLong)

theorem Follows.err_iff {clean : Prop} {d : Bytes} {e : ScanErr} {x : Scanner F} {t : Xcrepo.Scanner F}
    (h : Follows clean d e x t) : x.Err = none ↔ t.Err = none := by
  have h1 : x.s.err = t.err := congrArg (·.err) h.same
  rw [Err_none_iff]
  unfold Scanner.Err
  rw [h1]
  cases t.err with
  | some e => simp
  | none =>
    rcases h.buf with ⟨h2, -, -, -, h3, -⟩ | ⟨h2, h3⟩
    · rw [h2]
      rcases h3 with h3 | h3 <;> simp [Bufio.State.Err, h3]
    · rw [h2]
      simp [Bufio.State.Err, h3]

theorem longTail_dropLine (r : Bytes) (h : (10 : UInt8) ∈ r) (hl : LongTail (dropLine r)) : LongTail r := by
  obtain ⟨pre, tail, h1, h2, h3, h4⟩ := hl
  rcases line_split r with ⟨h5, -, -⟩ | h5
  · exact absurd h h5
  · refine ⟨takeLine r ++ 10 :: pre, tail, ?_, Or.inr ?_, h3, h4⟩
    · conv => lhs; rw [h5, h1]
      simp
    · rcases h2 with rfl | h2
      · simp
      · rw [List.getLast?_append, List.getLast?_cons, h2]; rfl

/-- One call of `Scan` on both sides. -/
theorem step (pf : Bytes → Option F) (clean : Prop) (d : Bytes) (e : ScanErr) (x : Scanner F) (t : Xcrepo.Scanner F)
    (h : Follows clean d e x t) (hd : e = .eof → d = []) :
    ((scan pf x).1 = (Xcrepo.scan pf t).1 ∧ Follows clean d e (scan pf x).2 (Xcrepo.scan pf t).2 ∧
      (e ≠ .eof → (scan pf x).1 = false → (scan pf x).2.Err ≠ none)) ∨
    (e ≠ .eof ∧ (scan pf x).1 = false ∧ (scan pf x).2.Err = some (.io e)) := by
  by_cases hx : x.Err = none
  case neg =>
    have ht : t.Err ≠ none := fun ht => hx (h.err_iff.mpr ht)
    rw [scanIO_err pf x hx, scan_err pf t ht]
    refine Or.inl ⟨rfl, ⟨?_, h.fmt, h.buf⟩, fun _ _ => hx⟩
    have := h.same
    dsimp only
    conv => rhs; rw [← this]
  case pos =>
    have ht : t.Err = none := h.err_iff.mp hx
    have hxs : x.s.err = none := by
      unfold Scanner.Err at hx
      cases hs : x.s.err with
      | none => rfl
      | some e => rw [hs] at hx; simp at hx
    rcases h.buf with ⟨h1, hinv, hrest, hend, herr, hlt⟩ | ⟨h1, -⟩
    case inr =>
      rw [((Err_none_iff t).mp ht).2] at h1; cases h1
    -- what stops at the error of the reader
    have stop : ∀ (ok : Bool) (io : Bufio.State), Bufio.scan x.io = (ok, io) → io.err = some e → e ≠ .eof →
        (e ≠ .eof ∧ (scan pf x).1 = false ∧ (scan pf x).2.Err = some (.io e)) := by
      intro ok io hb hio he
      have hE : io.Err = some e := by
        unfold Bufio.State.Err
        rw [hio, if_neg (by simpa using he)]
      rw [scanIO_stop pf x ok io hx hb (Or.inr (by rw [hE]; simp))]
      refine ⟨he, rfl, ?_⟩
      unfold Scanner.Err
      dsimp only
      rw [hxs, hE]
      rfl
    -- a line is read on both sides
    have go : ∀ (io : Bufio.State) (b : BufScanner), Bufio.scan x.io = (true, io) → bufScan t.buf = (true, b) →
        io.Err = none → b.tooLong = false → io.token = b.text → Inv clean io → rest io ++ d = b.rest → ending io = e →
        (io.err = none ∨ io.err = some .eof) → (clean ∨ e ≠ .eof ∨ ¬ LongTail (rest io)) →
        ((scan pf x).1 = (Xcrepo.scan pf t).1 ∧ Follows clean d e (scan pf x).2 (Xcrepo.scan pf t).2 ∧
          (e ≠ .eof → (scan pf x).1 = false → (scan pf x).2.Err ≠ none)) := by
      intro io b hb hb' hE hl htok hi' hr' he' herr' hlt'
      rw [scanIO_body pf x io hx hb hE, scan_body pf t b ht hb' hl, htok]
      have e1 : ({ t with ex := { Features := [], Labels := [] }, buf := b, lineNumber := t.lineNumber + 1 } : Xcrepo.Scanner F) =
          { ({ x.s with ex := { Features := [], Labels := [] }, lineNumber := x.s.lineNumber + 1 } : Xcrepo.Scanner F) with buf := b } := by
        conv => lhs; rw [← h.same]
      rw [e1, body_buf]
      refine ⟨rfl, ⟨rfl, body_err pf _ _ (by show x.s.err ≠ _; rw [hxs]; simp), Or.inl ⟨hl, hi', hr', he', herr', hlt'⟩⟩, ?_⟩
      intro _ hf
      have := body_false pf _ _ hf
      unfold Scanner.Err
      dsimp only at this ⊢
      split
      · simp
      · rename_i hn; exact absurd hn this
    have hsp := scan_spec clean x.io hinv
    generalize hres : Bufio.scan x.io = res at hsp
    rw [hend] at hsp
    have hlong : t.buf.tooLong = false := h1
    cases hsp with
    | line io k1 k2 k3 k4 k5 k6 k7 =>
      by_cases hstop : io.err = some e ∧ e ≠ .eof
      · exact Or.inr (stop _ _ hres hstop.1 hstop.2)
      · left
        have hio : io.err = none ∨ io.err = some .eof := by
          rcases k7 with k7 | k7
          · exact Or.inl k7
          · by_cases he : e = .eof
            · right; rw [k7, he]
            · exact absurd ⟨k7, he⟩ hstop
        have hne : t.buf.rest ≠ [] := by
          rw [← hrest]; intro hc
          rw [List.append_eq_nil_iff] at hc
          rw [hc.1] at k1; simp at k1
        have htl : takeLine t.buf.rest = takeLine (rest x.io) := by rw [← hrest, takeLine_prefix _ _ k1]
        refine go io { t.buf with rest := dropLine t.buf.rest, text := dropCR (takeLine t.buf.rest) } hres ?_ ?_ hlong ?_ k4 ?_ k6 hio ?_
        · unfold bufScan
          rw [if_neg (by rw [hlong]; decide), if_neg hne, if_neg (by rw [htl]; omega)]
        · rcases hio with h | h <;> simp [Bufio.State.Err, h]
        · rw [k3]; show _ = dropCR (takeLine t.buf.rest); rw [htl]
        · show _ = dropLine t.buf.rest
          rw [k5, ← hrest, drop_append_takeLine _ _ k1]
        · rcases hlt with hlt | hlt | hlt
          · exact Or.inl hlt
          · exact Or.inr (Or.inl hlt)
          · refine Or.inr (Or.inr ?_)
            rw [k5]
            exact fun hc => hlt (longTail_dropLine _ k1 hc)
    | last io k1 k2 k3 k4 k5 k6 k7 k8 =>
      by_cases he : e = .eof
      · left
        have hdn := hd he
        have hr : t.buf.rest = rest x.io := by rw [← hrest, hdn, List.append_nil]
        have hshort : (rest x.io).length < maxTokenSize := by
          rcases hlt with hlt | hlt | hlt
          · exact k4 hlt
          · exact absurd he hlt
          · apply Decidable.byContradiction
            intro hn
            have hlen : (rest x.io).length = 65536 := by
              have : maxTokenSize = 65536 := rfl
              omega
            exact hlt ⟨[], rest x.io, rfl, Or.inl rfl, k1, hlen⟩
        have htl : takeLine (rest x.io) = rest x.io := by
          rcases line_split (rest x.io) with ⟨-, h5, -⟩ | h5
          · exact h5
          · exact absurd (by rw [h5]; simp) k1
        have hdl : dropLine (rest x.io) = [] := by
          rcases line_split (rest x.io) with ⟨-, -, h5⟩ | h5
          · exact h5
          · exact absurd (by rw [h5]; simp) k1
        have hio : io.err = some .eof := by rw [k8, he]
        refine go io { t.buf with rest := dropLine t.buf.rest, text := dropCR (takeLine t.buf.rest) } hres ?_ ?_ hlong ?_ k6 ?_ ?_ (Or.inr hio) ?_
        · unfold bufScan
          rw [if_neg (by rw [hlong]; decide), if_neg (by rw [hr]; exact k2), if_neg (by rw [hr, htl]; omega)]
        · simp [Bufio.State.Err, hio]
        · rw [k5]; show _ = dropCR (takeLine t.buf.rest); rw [hr, htl]
        · show _ = dropLine t.buf.rest
          rw [k7, hr, hdl, hdn]; rfl
        · unfold ending; rw [k8]
        · rw [k7]
          rcases hlt with hlt | hlt | hlt
          · exact Or.inl hlt
          · exact Or.inr (Or.inl hlt)
          · refine Or.inr (Or.inr ?_)
            rintro ⟨pre, tail, h1, -, -, h4⟩
            have := congrArg List.length h1
            simp at this; omega
      · exact Or.inr (stop _ _ hres k8 he)
    | none io k1 k2 k3 k4 k5 =>
      by_cases he : e = .eof
      · left
        have hdn := hd he
        have hr : t.buf.rest = [] := by rw [← hrest, hdn, k1]; rfl
        have hb : bufScan t.buf = (false, { t.buf with text := [] }) := by
          unfold bufScan
          rw [if_neg (by rw [hlong]; decide), if_pos hr]
        rw [scan_false pf t _ ht hb, scanIO_stop pf x false io hx hres (Or.inl rfl)]
        refine ⟨rfl, ⟨?_, h.fmt, Or.inl ⟨hlong, k3, ?_, ?_, Or.inr (by rw [k5, he]), ?_⟩⟩, fun hc => absurd he hc⟩
        · dsimp only
          conv => rhs; rw [← h.same]
        · show rest io ++ d = t.buf.rest
          rw [k4, hdn, hr]; rfl
        · unfold ending; dsimp only; rw [k5]
        · dsimp only
          rw [k4, ← k1]; exact hlt
      · exact Or.inr (stop _ _ hres k5 he)
    | long io k1 k2 k3 =>
      left
      have hlen : maxTokenSize ≤ (takeLine t.buf.rest).length := by
        rw [← hrest]
        by_cases h10 : (10 : UInt8) ∈ rest x.io
        · rw [takeLine_prefix _ _ h10]; exact k1
        · have htl : takeLine (rest x.io) = rest x.io := by
            rcases line_split (rest x.io) with ⟨-, h5, -⟩ | h5
            · exact h5
            · exact absurd (by rw [h5]; simp) h10
          rw [htl] at k1
          exact Nat.le_trans k1 (takeLine_ge _ _ h10)
      have hne : t.buf.rest ≠ [] := by
        intro hc; rw [hc] at hlen; simp [takeLine, maxTokenSize] at hlen
      have hb : bufScan t.buf = (false, { t.buf with tooLong := true, text := [] }) := by
        unfold bufScan
        rw [if_neg (by rw [hlong]; decide), if_neg hne, if_pos hlen]
      rw [scan_false pf t _ ht hb, scanIO_stop pf x false io hx hres (Or.inl rfl)]
      refine ⟨rfl, ⟨?_, h.fmt, Or.inr ⟨rfl, k3⟩⟩, ?_⟩
      · dsimp only
        conv => rhs; rw [← h.same]
      · intro _ _
        unfold Scanner.Err
        dsimp only
        rw [hxs]
        simp [Bufio.State.Err, k3]

/-! ### The header -/

/-- The fields of the scanner that `NewScanner` starts from. -/
def blank : Xcrepo.Scanner F :=
  { buf := { rest := [], tooLong := false, text := [] }, err := none, lineNumber := 0,
    totalPoints := 0, numFeatures := 0, numLabels := 0, ex := { Features := [], Labels := [] } }

theorem headerOn_buf (s : Xcrepo.Scanner F) (b : BufScanner) (line : Bytes) :
    headerOn { s with buf := b } line = { headerOn s line with buf := b } := by
  unfold headerOn
  split
  · rfl
  · split <;> rfl

theorem headerOn_err (s : Xcrepo.Scanner F) (line : Bytes) (h : s.err ≠ some .tooLong) : (headerOn s line).err ≠ some .tooLong := by
  unfold headerOn
  split
  · simp
  · split
    · exact h
    · simp

theorem newIO_line (r : Reader) (ok : Bool) (io : Bufio.State) (hb : Bufio.scan (Bufio.new r) = (ok, io)) (hl : io.Err = none) :
    (newScanner r : Scanner F) = { io := io, s := headerOn { (blank : Xcrepo.Scanner F) with lineNumber := 1 } io.token } := by
  unfold newScanner scanHeader
  dsimp only
  rw [hb]
  dsimp only
  rw [if_neg (by rw [hl]; decide)]
  unfold headerOn
  split
  · rfl
  · generalize headerInts (split 32 io.token) = h
    match h with
    | some [_, _, _] => rfl
    | none => rfl
    | some [] => rfl
    | some [_] => rfl
    | some [_, _] => rfl
    | some (_ :: _ :: _ :: _ :: _) => rfl

theorem newIO_stop (r : Reader) (ok : Bool) (io : Bufio.State) (hb : Bufio.scan (Bufio.new r) = (ok, io)) (hl : io.Err ≠ none) :
    (newScanner r : Scanner F) = { io := io, s := blank } := by
  unfold newScanner scanHeader
  dsimp only
  rw [hb]
  dsimp only
  rw [if_pos hl]
  rfl

theorem newScanner_of (content : Bytes) (ok : Bool) (b : BufScanner)
    (hb : bufScan { rest := content, tooLong := false, text := [] } = (ok, b)) (hl : b.tooLong = false) :
    (Xcrepo.newScanner content : Xcrepo.Scanner F) = headerOn { (blank : Xcrepo.Scanner F) with lineNumber := 1, buf := b } b.text := by
  unfold Xcrepo.newScanner Xcrepo.scanHeader
  dsimp only
  rw [hb]
  dsimp only
  rw [if_neg (by rw [hl]; decide)]
  rfl

theorem newScanner_stop (content : Bytes) (ok : Bool) (b : BufScanner)
    (hb : bufScan { rest := content, tooLong := false, text := [] } = (ok, b)) (hl : b.tooLong = true) :
    (Xcrepo.newScanner content : Xcrepo.Scanner F) = { (blank : Xcrepo.Scanner F) with buf := b } := by
  unfold Xcrepo.newScanner Xcrepo.scanHeader
  dsimp only
  rw [hb]
  dsimp only
  rw [if_pos hl]
  rfl

/-- `NewScanner` on both sides. -/
theorem begin (clean : Prop) (d : Bytes) (e : ScanErr) (r : Reader) (content : Bytes) (hr : received 0 r = (content, e))
    (hs : clean → Separate r) (hlt : clean ∨ e ≠ .eof ∨ ¬ LongTail content) (hd : e = .eof → d = []) :
    Follows clean d e (newScanner r : Scanner F) (Xcrepo.newScanner (content ++ d)) ∨
    (e ≠ .eof ∧ (newScanner r : Scanner F).Err = some (.io e)) := by
  have hinv := Inv.new clean r hs
  have hrest : rest (Bufio.new r) = content := by
    unfold rest Bufio.new; dsimp only; rw [hr]; rfl
  have hend : ending (Bufio.new r) = e := by
    unfold ending Bufio.new; dsimp only; rw [hr]
  have hsp := scan_spec clean (Bufio.new r) hinv
  generalize hres : Bufio.scan (Bufio.new r) = res at hsp
  rw [hend, hrest] at hsp
  have stop : ∀ (ok : Bool) (io : Bufio.State), Bufio.scan (Bufio.new r) = (ok, io) → io.err = some e → e ≠ .eof →
      (e ≠ .eof ∧ (newScanner r : Scanner F).Err = some (.io e)) := by
    intro ok io hb hio he
    have hE : io.Err = some e := by
      unfold Bufio.State.Err
      rw [hio, if_neg (by simpa using he)]
    rw [newIO_stop r ok io hb (by rw [hE]; simp)]
    refine ⟨he, ?_⟩
    unfold Scanner.Err
    dsimp only
    rw [hE]
    rfl
  have go : ∀ (ok ok' : Bool) (io : Bufio.State) (b : BufScanner), Bufio.scan (Bufio.new r) = (ok, io) →
      bufScan { rest := content ++ d, tooLong := false, text := [] } = (ok', b) →
      io.Err = none → b.tooLong = false → io.token = b.text → Inv clean io → rest io ++ d = b.rest → ending io = e →
      (io.err = none ∨ io.err = some .eof) → (clean ∨ e ≠ .eof ∨ ¬ LongTail (rest io)) →
      Follows clean d e (newScanner r : Scanner F) (Xcrepo.newScanner (content ++ d)) := by
    intro ok ok' io b hb hb' hE hl htok hi' hr' he' herr' hlt'
    rw [newIO_line r ok io hb hE, newScanner_of _ ok' b hb' hl, htok]
    have e1 := headerOn_buf ({ (blank : Xcrepo.Scanner F) with lineNumber := 1 }) b b.text
    have e2 : ({ (blank : Xcrepo.Scanner F) with lineNumber := 1, buf := b } : Xcrepo.Scanner F) =
      { ({ (blank : Xcrepo.Scanner F) with lineNumber := 1 } : Xcrepo.Scanner F) with buf := b } := rfl
    rw [e2, e1]
    exact ⟨rfl, headerOn_err _ _ (by simp [blank]), Or.inl ⟨hl, hi', hr', he', herr', hlt'⟩⟩
  cases hsp with
  | line io k1 k2 k3 k4 k5 k6 k7 =>
    by_cases hstop : io.err = some e ∧ e ≠ .eof
    · exact Or.inr (stop _ _ hres hstop.1 hstop.2)
    · left
      have hio : io.err = none ∨ io.err = some .eof := by
        rcases k7 with k7 | k7
        · exact Or.inl k7
        · by_cases he : e = .eof
          · right; rw [k7, he]
          · exact absurd ⟨k7, he⟩ hstop
      have hne : content ++ d ≠ [] := by
        intro hc
        rw [List.append_eq_nil_iff] at hc
        rw [hc.1] at k1; simp at k1
      have htl : takeLine (content ++ d) = takeLine content := takeLine_prefix _ _ k1
      refine go true true io { rest := dropLine (content ++ d), tooLong := false, text := dropCR (takeLine (content ++ d)) } hres ?_ ?_ rfl ?_ k4 ?_ k6 hio ?_
      · unfold bufScan
        rw [if_neg (by simp), if_neg hne, if_neg (by show ¬ _ ≤ (takeLine (content ++ d)).length; rw [htl]; omega)]
      · rcases hio with h | h <;> simp [Bufio.State.Err, h]
      · rw [k3]; show _ = dropCR (takeLine (content ++ d)); rw [htl]
      · show _ = dropLine (content ++ d)
        rw [k5, drop_append_takeLine _ _ k1]
      · rcases hlt with hlt | hlt | hlt
        · exact Or.inl hlt
        · exact Or.inr (Or.inl hlt)
        · refine Or.inr (Or.inr ?_)
          rw [k5]
          exact fun hc => hlt (longTail_dropLine _ k1 hc)
  | last io k1 k2 k3 k4 k5 k6 k7 k8 =>
    by_cases he : e = .eof
    · left
      have hdn := hd he
      subst hdn
      have hshort : content.length < maxTokenSize := by
        rcases hlt with hlt | hlt | hlt
        · exact k4 hlt
        · exact absurd he hlt
        · apply Decidable.byContradiction
          intro hn
          have hlen : content.length = 65536 := by
            have : maxTokenSize = 65536 := rfl
            omega
          exact hlt ⟨[], content, rfl, Or.inl rfl, k1, hlen⟩
      have hio : io.err = some .eof := by rw [k8, he]
      rw [List.append_nil] at go ⊢
      refine go true true io { rest := dropLine content, tooLong := false, text := dropCR (takeLine content) } hres ?_ ?_ rfl ?_ k6 ?_ ?_ (Or.inr hio) ?_
      · unfold bufScan
        rw [if_neg (by simp), if_neg k2, if_neg (by show ¬ _ ≤ (takeLine content).length; rw [takeLine_all _ k1]; omega)]
      · simp [Bufio.State.Err, hio]
      · rw [k5]; show _ = dropCR (takeLine content); rw [takeLine_all _ k1]
      · show _ = dropLine content
        rw [k7, dropLine_all _ k1]; rfl
      · unfold ending; rw [k8]
      · rw [k7]
        rcases hlt with hlt | hlt | hlt
        · exact Or.inl hlt
        · exact Or.inr (Or.inl hlt)
        · refine Or.inr (Or.inr ?_)
          rintro ⟨pre, tail, h1, -, -, h4⟩
          have := congrArg List.length h1
          simp at this; omega
    · exact Or.inr (stop _ _ hres k8 he)
  | none io k1 k2 k3 k4 k5 =>
    by_cases he : e = .eof
    · left
      have hdn := hd he
      have hio : io.err = some .eof := by rw [k5, he]
      refine go false false io { rest := content ++ d, tooLong := false, text := [] } hres ?_ ?_ rfl ?_ k3 ?_ ?_ (Or.inr hio) ?_
      · unfold bufScan
        rw [if_neg (by simp), if_pos (by rw [k1, hdn]; rfl)]
      · simp [Bufio.State.Err, hio]
      · exact k2
      · show _ = content ++ d
        rw [k4, k1]
      · unfold ending; rw [k5]
      · rw [k4, ← k1]; exact hlt
    · exact Or.inr (stop _ _ hres k5 he)
  | long io k1 k2 k3 =>
    left
    have hlen : maxTokenSize ≤ (takeLine (content ++ d)).length := by
      by_cases h10 : (10 : UInt8) ∈ content
      · rw [takeLine_prefix _ _ h10]; exact k1
      · rw [takeLine_all _ h10] at k1
        exact Nat.le_trans k1 (takeLine_ge _ _ h10)
    have hne : content ++ d ≠ [] := by
      intro hc; rw [hc] at hlen; simp [takeLine, maxTokenSize] at hlen
    have hb : bufScan { rest := content ++ d, tooLong := false, text := [] } = (false, { rest := content ++ d, tooLong := true, text := [] }) := by
      unfold bufScan
      rw [if_neg (by simp), if_neg hne, if_pos hlen]
    rw [newIO_stop r false io hres (by unfold Bufio.State.Err; rw [k3]; simp), newScanner_stop _ false _ hb rfl]
    exact ⟨rfl, by simp [blank], Or.inr ⟨rfl, k3⟩⟩

end Goslide.XcrepoIO
