import Verif.Proofs.XcrepoIO
import Verif.Props.Xcrepo
/-
C76: reading a data set from a reader that delivers its bytes in pieces or fails.
-/
namespace Goslide.Props
open Spec Bufio
set_option linter.unusedSectionVars false
variable {F : Type} [GoFloat F]

/-- The same answer of `Err()`. -/
inductive SameErr : Option XcrepoIO.Err → Option Xcrepo.Err → Prop
  | none : SameErr none none
  | format (e : Xcrepo.Err) : e ≠ .tooLong → SameErr (some (.format e)) (some e)
  | tooLong : SameErr (some (.io .tooLong)) (some .tooLong)

/-- The same answers of all methods of the two scanners. -/
structure SameScanner (x : XcrepoIO.Scanner F) (t : Xcrepo.Scanner F) : Prop where
  example_ : x.s.ex = t.ex
  err : SameErr x.Err t.Err
  lineNumber : x.s.lineNumber = t.lineNumber
  totalPoints : x.s.totalPoints = t.totalPoints
  numFeatures : x.s.numFeatures = t.numFeatures
  numLabels : x.s.numLabels = t.numLabels

theorem same_of_follows {clean : Prop} {d : Bytes} {e : ScanErr} {x : XcrepoIO.Scanner F} {t : Xcrepo.Scanner F}
    (h : XcrepoIO.Follows clean d e x t) : SameScanner x t := by
  have hs := h.same
  refine ⟨congrArg (·.ex) hs, ?_, congrArg (·.lineNumber) hs, congrArg (·.totalPoints) hs, congrArg (·.numFeatures) hs,
    congrArg (·.numLabels) hs⟩
  have h1 : x.s.err = t.err := congrArg (·.err) hs
  unfold XcrepoIO.Scanner.Err Xcrepo.Scanner.Err
  rw [h1]
  have h2 := h.fmt
  cases ht : t.err with
  | some e => exact SameErr.format e (fun he => h2 (by rw [ht, he]))
  | none =>
    rcases h.buf with ⟨h2, -, -, -, h3, -⟩ | ⟨h2, h3⟩
    · rw [h2]
      rcases h3 with h3 | h3 <;> simp [Bufio.State.Err, h3] <;> exact SameErr.none
    · rw [h2]
      simp [Bufio.State.Err, h3]
      exact SameErr.tooLong

/-- C76, first part (partial). A reader delivers the bytes of `content` in pieces of any sizes, with up to 100 empty
reads in a row anywhere, and then the end of the file: after any number of calls of `Scan` all methods
answer as if the content had been read at once (so C31 to C36 hold for every way the bytes arrive).
Assumed: the end of the file is reported by a read without data, as by an `os.File`; or the input does not
end with a line of exactly 65536 bytes without newline. `C76_chunks_false` shows that this is needed. -/
theorem C76_chunks_partial (parseFloat : Bytes → Option F) (r : Reader) (content : Bytes) (hr : Reads r content)
    (hs : Separate r ∨ ¬ LongTail content) (n : Nat) :
    let x := XcrepoIO.scanN parseFloat n (XcrepoIO.newScanner r)
    let t := Xcrepo.scanN parseFloat n (Xcrepo.newScanner content)
    SameScanner x t ∧ (XcrepoIO.scan parseFloat x).1 = (Xcrepo.scan parseFloat t).1 := by
  have hb : XcrepoIO.Follows (Separate r) [] .eof (XcrepoIO.newScanner r : XcrepoIO.Scanner F) (Xcrepo.newScanner content) := by
    rcases XcrepoIO.begin (F := F) (Separate r) [] .eof r content hr id
      (hs.elim Or.inl (fun h => Or.inr (Or.inr h))) (fun _ => rfl) with h | ⟨h, -⟩
    · rwa [List.append_nil] at h
    · exact absurd rfl h
  have hn : ∀ (n : Nat) (x : XcrepoIO.Scanner F) (t : Xcrepo.Scanner F), XcrepoIO.Follows (Separate r) [] .eof x t →
      XcrepoIO.Follows (Separate r) [] .eof (XcrepoIO.scanN parseFloat n x) (Xcrepo.scanN parseFloat n t) := by
    intro n
    induction n with
    | zero => intro x t h; exact h
    | succ n ih =>
      intro x t h
      rcases XcrepoIO.step parseFloat _ _ _ x t h (fun _ => rfl) with ⟨-, h, -⟩ | ⟨h, -⟩
      · exact ih _ _ h
      · exact absurd rfl h
  have h := hn n _ _ hb
  refine ⟨same_of_follows h, ?_⟩
  rcases XcrepoIO.step parseFloat _ _ _ _ _ h (fun _ => rfl) with ⟨h, -, -⟩ | ⟨h, -⟩
  · exact h
  · exact absurd rfl h

/-- The first part does not hold for every reader: 65536 bytes without newline that arrive in pieces are `ErrTooLong`
when the end of the file is reported separately, but a line (here a malformed header) when it is reported
together with the last byte. -/
theorem C76_chunks_false :
    ∃ (r1 r2 : Reader) (content : Bytes), Reads r1 content ∧ Reads r2 content ∧
      (XcrepoIO.newScanner r1 : XcrepoIO.Scanner F).Err = some (.io .tooLong) ∧
      (XcrepoIO.newScanner r2 : XcrepoIO.Scanner F).Err = some (.format .malformedHeader) := by
  obtain ⟨c, hlen, hmem⟩ : ∃ c : Bytes, c.length = 65536 ∧ ∀ b ∈ c, b = 48 :=
    ⟨List.replicate 65536 48, List.length_replicate, fun b h => List.eq_of_mem_replicate h⟩
  have hne : c ≠ [] := by intro h; rw [h] at hlen; simp at hlen
  have h10 : (10 : UInt8) ∉ c := by
    intro h
    have := hmem _ h
    revert this; decide
  have h32 : (32 : UInt8) ∉ c := by
    intro h
    have := hmem _ h
    revert this; decide
  have h13 : c.getLast? ≠ some 13 := by
    intro h
    have := hmem _ (List.mem_of_getLast? h)
    revert this; decide
  have hr1 : Reads [⟨c, none⟩] c := by
    show received 0 _ = _
    simp [received, hne]
  have hr2 : Reads [⟨c, some .eof⟩] c := rfl
  refine ⟨[⟨c, none⟩], [⟨c, some .eof⟩], c, hr1, hr2, ?_, ?_⟩
  · have h := (C76_chunks_partial (F := F) (fun _ => none) _ c hr1 (Or.inl (by intro d hd he; simp at hd; subst hd; simp at he)) 0).1.err
    have hl := C36_too_long_header (F := F) c 65536 c [] (hlen ▸ FirstLine.last c hne h10 h13) (Nat.le_refl _)
    dsimp only [XcrepoIO.scanN, Xcrepo.scanN] at h
    generalize (XcrepoIO.newScanner [⟨c, none⟩] : XcrepoIO.Scanner F).Err = o at h ⊢
    generalize (Xcrepo.newScanner c : Xcrepo.Scanner F) = t at h hl
    rw [hl] at h
    cases h with
    | format _ h => exact absurd rfl h
    | tooLong => rfl
  · obtain ⟨s', h1, h2, h3⟩ := scanLoop_tail (weight [⟨c, some .eof⟩] + 2) [] c 0 [] (by simp) h10 hne (by simp [hlen, Xcrepo.maxTokenSize])
      (Nat.le_refl _) (Nat.zero_le _) (by simp [weight])
    have hE : s'.Err = none := by simp [Bufio.State.Err, h3]
    rw [XcrepoIO.newIO_line _ true s' h1 hE, h2, List.nil_append]
    have hcr : dropCR c = c := by
      unfold dropCR
      rw [if_neg h13]
    have hsplit : split 32 c = [c] := split_single 32 c h32
    unfold XcrepoIO.Scanner.Err Xcrepo.headerOn
    rw [hcr, hsplit]
    rfl

/-- C76, second part. The reader delivers `content` and then fails with an error `e` other than the end of the file
(at any byte, in any pieces). Then no example is made up from a truncated line: whatever bytes `d` the
file has after the failure, the examples delivered are examples of the whole file, in order. And when `Scan` returns
false, `Err()` is not nil: it is the error of the reader, or the one that the whole file has at this place. -/
theorem C76_failing_reader (parseFloat : Bytes → Option F) (r : Reader) (content : Bytes) (e : ScanErr) (hf : Fails r content e)
    (d : Bytes) (es : List (Example F)) (x : XcrepoIO.Scanner F)
    (hx : Delivers (XcrepoIO.scan parseFloat) (fun x => x.s.ex) (XcrepoIO.newScanner r) es x) :
    ∃ t, Delivers (Xcrepo.scan parseFloat) Xcrepo.Scanner.ex (Xcrepo.newScanner (content ++ d)) es t ∧
      ((XcrepoIO.scan parseFloat x).1 = false →
        (XcrepoIO.scan parseFloat x).2.Err = some (.io e) ∨
        ((Xcrepo.scan parseFloat t).1 = false ∧ (XcrepoIO.scan parseFloat x).2.Err ≠ none ∧
          SameErr (XcrepoIO.scan parseFloat x).2.Err (Xcrepo.scan parseFloat t).2.Err)) := by
  have key : ∀ (es : List (Example F)) (x0 x : XcrepoIO.Scanner F) (t0 : Xcrepo.Scanner F),
      (XcrepoIO.Follows False d e x0 t0 ∨ x0.Err = some (.io e)) →
      Delivers (XcrepoIO.scan parseFloat) (fun x => x.s.ex) x0 es x →
      ∃ t, Delivers (Xcrepo.scan parseFloat) Xcrepo.Scanner.ex t0 es t ∧
        (XcrepoIO.Follows False d e x t ∨ x.Err = some (.io e)) := by
    intro es
    induction es with
    | nil =>
      intro x0 x t0 h hd
      cases hd
      exact ⟨t0, Delivers.done t0, h⟩
    | cons a es ih =>
      intro x0 x t0 h hd
      cases hd with
      | next _ x1 _ _ hsc hd =>
        rcases h with h | h
        · rcases XcrepoIO.step parseFloat _ _ _ x0 t0 h (fun h => absurd h hf.2) with ⟨h1, h2, -⟩ | ⟨-, h1, -⟩
          · rw [hsc] at h1 h2
            dsimp only at h1 h2
            obtain ⟨t, ht, hft⟩ := ih x1 x _ (Or.inl h2) hd
            refine ⟨t, ?_, hft⟩
            have hex : x1.s.ex = (Xcrepo.scan parseFloat t0).2.ex := (same_of_follows h2).example_
            rw [hex]
            exact Delivers.next _ _ _ _ (Prod.ext h1.symm rfl) ht
          · rw [hsc] at h1; cases h1
        · rw [XcrepoIO.scanIO_err parseFloat x0 (by rw [h]; simp)] at hsc
          cases hsc
  have hb : XcrepoIO.Follows False d e (XcrepoIO.newScanner r : XcrepoIO.Scanner F) (Xcrepo.newScanner (content ++ d)) ∨
      (XcrepoIO.newScanner r : XcrepoIO.Scanner F).Err = some (.io e) := by
    rcases XcrepoIO.begin (F := F) False d e r content hf.1 False.elim (Or.inr (Or.inl hf.2)) (fun h => absurd h hf.2) with h | ⟨-, h⟩
    · exact Or.inl h
    · exact Or.inr h
  obtain ⟨t, ht, h⟩ := key es _ x _ hb hx
  refine ⟨t, ht, fun hfalse => ?_⟩
  rcases h with h | h
  · rcases XcrepoIO.step parseFloat _ _ _ x t h (fun h => absurd h hf.2) with ⟨h1, h2, h3⟩ | ⟨-, -, h1⟩
    · exact Or.inr ⟨by rw [← h1]; exact hfalse, h3 hf.2 hfalse, (same_of_follows h2).err⟩
    · exact Or.inl h1
  · left
    rw [XcrepoIO.scanIO_err parseFloat x (by rw [h]; simp)]
    exact h

-- a header and two examples in odd pieces, with an empty read in between
def oddPieces : Reader := [⟨bytes "2 5", none⟩, ⟨[], none⟩, ⟨bytes " 3\n0,2 1:7 4:", none⟩, ⟨bytes "-2\r", none⟩, ⟨bytes "\n 0:1", none⟩]

example : Reads oddPieces (bytes "2 5 3\n0,2 1:7 4:-2\r\n 0:1") ∧ Separate oddPieces := by
  constructor
  · show received 0 _ = _; decide +kernel
  · intro c hc; revert c; decide +kernel

example : let x := (XcrepoIO.newScanner oddPieces : XcrepoIO.Scanner Rat)
    x.Err = none ∧ (XcrepoIO.scan toyParse x).1 = true ∧ (XcrepoIO.scan toyParse x).2.s.ex = ⟨[⟨1, 7⟩, ⟨4, -2⟩], [0, 2]⟩ ∧
    (XcrepoIO.scan toyParse (XcrepoIO.scanN toyParse 1 x)).2.s.ex = ⟨[⟨0, 1⟩], []⟩ ∧
    (XcrepoIO.scan toyParse (XcrepoIO.scanN toyParse 2 x)).1 = false := by
  decide +kernel

-- the disk fails in the middle of a value: `4:-2` of the file would read as `4:-` or `4:` or, cut elsewhere, as another
-- number; nothing is delivered for this line and the error is the one of the disk
def diskError : Reader := [⟨bytes "2 5 3\n0 0:1\n0,2 1:7 4:12", none⟩, ⟨[], some (.other 5)⟩]

example : Fails diskError (bytes "2 5 3\n0 0:1\n0,2 1:7 4:12") (.read 5) := by
  constructor
  · decide +kernel
  · simp

example : let x := (XcrepoIO.newScanner diskError : XcrepoIO.Scanner Rat)
    (XcrepoIO.scan toyParse x).1 = true ∧ (XcrepoIO.scan toyParse x).2.s.ex = ⟨[⟨0, 1⟩], [0]⟩ ∧
    (XcrepoIO.scan toyParse (XcrepoIO.scanN toyParse 1 x)).1 = false ∧
    (XcrepoIO.scan toyParse (XcrepoIO.scanN toyParse 1 x)).2.Err = some (.io (.read 5)) := by
  decide +kernel

-- `bufio.Scanner` itself does hand out the truncated line (the check of `Err()` after `Scan()` in `Scanner.Scan` matters)
example : let s := (Bufio.scan (Bufio.scan (Bufio.scan (Bufio.new diskError)).2).2)
    s.1 = true ∧ s.2.token = bytes "0,2 1:7 4:12" ∧ s.2.Err = some (.read 5) := by
  decide +kernel

end Goslide.Props
