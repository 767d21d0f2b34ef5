import Verif.Spec.Bufio
import Verif.Proofs.Xcrepo
namespace Goslide.Bufio
open Spec Xcrepo

theorem findIdx_line (data : Bytes) :
    data.findIdx? (fun c => c == 10) = if (10 : UInt8) ∈ data then some (takeLine data).length else none := by
  induction data with
  | nil => rfl
  | cons c cs ih =>
    rw [List.findIdx?_cons]
    by_cases h : c = 10
    · subst h; simp [takeLine]
    · have h1 : takeLine (c :: cs) = c :: takeLine cs := by
        unfold takeLine; rw [List.takeWhile_cons, if_pos (by simpa using h)]
      have h2 : ((10 : UInt8) ∈ c :: cs) ↔ (10 : UInt8) ∈ cs := by
        rw [List.mem_cons]
        exact ⟨fun h' => h'.resolve_left (fun e => h e.symm), Or.inr⟩
      rw [if_neg (by simpa using h), ih, h1]
      by_cases h3 : (10 : UInt8) ∈ cs
      · rw [if_pos h3, if_pos (h2.mpr h3)]; rfl
      · rw [if_neg h3, if_neg (fun h' => h3 (h2.mp h'))]; rfl

theorem take_takeLine (data : Bytes) : data.take (takeLine data).length = takeLine data := by
  induction data with
  | nil => rfl
  | cons c cs ih =>
    unfold takeLine at *
    rw [List.takeWhile_cons]
    split
    · rw [List.length_cons, List.take_succ_cons, ih]
    · rfl

theorem takeLine_prefix (data x : Bytes) (h : (10 : UInt8) ∈ data) : takeLine (data ++ x) = takeLine data := by
  induction data with
  | nil => simp at h
  | cons c cs ih =>
    unfold takeLine at *
    rw [List.cons_append, List.takeWhile_cons, List.takeWhile_cons]
    by_cases hc : c = 10
    · subst hc; simp
    · rw [List.mem_cons] at h
      rw [ih (h.resolve_left (fun e => hc e.symm))]

theorem dropLine_eq (data : Bytes) : dropLine data = data.drop ((takeLine data).length + 1) := by
  induction data with
  | nil => rfl
  | cons c cs ih =>
    unfold takeLine dropLine at *
    rw [List.dropWhile_cons, List.takeWhile_cons]
    by_cases hc : c = 10
    · subst hc; simp
    · rw [if_pos (by simpa using hc), if_pos (by simpa using hc), List.length_cons, List.drop_succ_cons, ih]

theorem takeLine_lt (data : Bytes) (h : (10 : UInt8) ∈ data) : (takeLine data).length < data.length := by
  rcases line_split data with ⟨h1, -, -⟩ | h1
  · exact absurd h h1
  · have := congrArg List.length h1
    simp only [List.length_append, List.length_cons] at this
    omega

theorem takeLine_ge (a b : Bytes) (h : (10 : UInt8) ∉ a) : a.length ≤ (takeLine (a ++ b)).length := by
  induction a with
  | nil => simp
  | cons c cs ih =>
    rw [List.mem_cons, not_or] at h
    have := ih h.2
    unfold takeLine at *
    rw [List.cons_append, List.takeWhile_cons, if_pos (by simpa using fun e => h.1 e.symm)]
    simpa using this

/-! ### Reading -/

theorem received_split (k : Nat) (c : Chunk) (cs : Reader) (room : Nat) (h : room < c.data.length) :
    received k (c :: cs) =
      (c.data.take room ++ (received 0 ({ c with data := c.data.drop room } :: cs)).1,
        (received 0 ({ c with data := c.data.drop room } :: cs)).2) := by
  have h1 : c.data ≠ [] := by intro e; rw [e] at h; simp at h
  have h2 : c.data.drop room ≠ [] := by
    intro e
    have := congrArg List.length e
    rw [List.length_drop] at this
    simp at this; omega
  unfold received
  cases he : c.err with
  | some e => dsimp only; rw [List.take_append_drop]
  | none =>
    dsimp only
    rw [if_neg h1, if_neg h2]
    dsimp only
    rw [← List.append_assoc, List.take_append_drop]

/-- What the reading loop does to the input that is still to come. -/
theorem fill_spec (room : Nat) (hr : 0 < room) (r : Reader) : ∀ (k : Nat), k ≤ 100 →
    (fill room k r).1.length ≤ room ∧
    (match (fill room k r).2.1 with
      | none => (fill room k r).1 ≠ [] ∧ weight (fill room k r).2.2 < weight r ∧
          received k r = ((fill room k r).1 ++ (received 0 (fill room k r).2.2).1, (received 0 (fill room k r).2.2).2)
      | some e => received k r = ((fill room k r).1, e) ∧ e ≠ .tooLong) ∧
    (Separate r → Separate (fill room k r).2.2 ∧ ((fill room k r).2.1 ≠ none → (fill room k r).1 = [])) := by
  induction r with
  | nil =>
    intro k _
    refine ⟨by simp [fill], by simp [fill, received], fun h => ⟨h, fun _ => rfl⟩⟩
  | cons c cs ih =>
    intro k hk
    by_cases hroom : room < c.data.length
    · have hf : fill room k (c :: cs) = (c.data.take room, none, { c with data := c.data.drop room } :: cs) := by
        rw [fill, if_pos hroom]
      rw [hf]
      refine ⟨by dsimp only; rw [List.length_take]; omega, ⟨?_, ?_, received_split k c cs room hroom⟩, ?_⟩
      · intro e
        have := congrArg List.length e
        rw [List.length_take, List.length_nil] at this
        omega
      · simp only [weight, List.length_drop]; omega
      · intro hs
        refine ⟨?_, fun h => absurd rfl h⟩
        intro d hd hde
        rw [List.mem_cons] at hd
        rcases hd with rfl | hd
        · have : c.data = [] := hs c List.mem_cons_self hde
          rw [this] at hroom; simp at hroom
        · exact hs d (List.mem_cons_of_mem _ hd) hde
    · cases he : c.err with
      | some e =>
        have hf : fill room k (c :: cs) = (c.data, some (ScanErr.ofRead e), cs) := by
          rw [fill, if_neg hroom, he]
        rw [hf]
        refine ⟨by dsimp only; omega, ⟨?_, ?_⟩, ?_⟩
        · unfold received; rw [he]
        · cases e <;> simp [ScanErr.ofRead]
        · intro hs
          exact ⟨fun d hd => hs d (List.mem_cons_of_mem _ hd), fun _ => hs c List.mem_cons_self (by rw [he]; simp)⟩
      | none =>
        by_cases hd : c.data = []
        · by_cases hk2 : 100 < k + 1
          · have hf : fill room k (c :: cs) = ([], some .noProgress, cs) := by
              rw [fill, if_neg hroom, he]; simp only [hd]; rw [if_neg (by simp), if_pos hk2]
            rw [hf]
            refine ⟨by simp, ⟨?_, by simp⟩, ?_⟩
            · unfold received; rw [he]; dsimp only; rw [if_pos hd, if_pos (by omega)]
            · intro hs
              exact ⟨fun d hd => hs d (List.mem_cons_of_mem _ hd), fun _ => rfl⟩
          · have hf : fill room k (c :: cs) = fill room (k + 1) cs := by
              rw [fill, if_neg hroom, he]; simp only [hd]; rw [if_neg (by simp), if_neg hk2]
            have hrec : received k (c :: cs) = received (k + 1) cs := by
              conv => lhs; unfold received
              rw [he]; dsimp only; rw [if_pos hd, if_neg (by omega)]
            rw [hf, hrec]
            obtain ⟨h1, h2, h3⟩ := ih (k + 1) (by omega)
            refine ⟨h1, ?_, ?_⟩
            · cases hx : (fill room (k + 1) cs).2.1 with
              | some e => rw [hx] at h2; exact h2
              | none =>
                rw [hx] at h2
                refine ⟨h2.1, ?_, h2.2.2⟩
                have := h2.2.1
                simp only [weight]; omega
            · intro hs
              exact h3 (fun d hd => hs d (List.mem_cons_of_mem _ hd))
        · have hf : fill room k (c :: cs) = (c.data, none, cs) := by
            rw [fill, if_neg hroom, he]; dsimp only; rw [if_pos hd]
          rw [hf]
          refine ⟨by dsimp only; omega, ⟨hd, by simp only [weight]; omega, ?_⟩, ?_⟩
          · conv => lhs; unfold received
            rw [he]; dsimp only; rw [if_neg hd]
          · intro hs
            exact ⟨fun d hd => hs d (List.mem_cons_of_mem _ hd), fun h => absurd rfl h⟩

/-! ### Scan -/

/-- The bytes that are still to be scanned. -/
def rest (s : State) : Bytes :=
  match s.err with
  | none => s.pending ++ (received 0 s.reader).1
  | some _ => s.pending

/-- The error that ends the input. -/
def ending (s : State) : ScanErr :=
  match s.err with
  | none => (received 0 s.reader).2
  | some e => e

/-- The invariant of the scanner; `clean` is the assumption that the reader returns its error without data. -/
structure Inv (clean : Prop) (s : State) : Prop where
  fits : s.start + s.pending.length ≤ s.size
  size : s.size ≤ maxTokenSize
  sep : clean → Separate s.reader
  short : clean → s.err ≠ none → s.pending.length < maxTokenSize
  ne : ending s ≠ .tooLong

theorem received_ne (r : Reader) : ∀ k, (received k r).2 ≠ .tooLong := by
  induction r with
  | nil => intro k; simp [received]
  | cons c cs ih =>
    intro k
    unfold received
    cases c.err with
    | some e => cases e <;> simp [ScanErr.ofRead]
    | none =>
      dsimp only
      split
      · split
        · simp
        · exact ih _
      · exact ih 0

theorem Inv.new (clean : Prop) (r : Reader) (h : clean → Separate r) : Inv clean (new r) :=
  ⟨by simp [Bufio.new], by simp [Bufio.new], h, fun _ h => absurd rfl h, received_ne r 0⟩

/-- The four ways `Scan` can end, in terms of the input that was left. -/
inductive Outcome (clean : Prop) (r : Bytes) (e : ScanErr) : Bool × State → Prop
  /-- a complete line -/
  | line (s : State) : 10 ∈ r → (takeLine r).length < maxTokenSize → s.token = dropCR (takeLine r) →
      Inv clean s → rest s = dropLine r → ending s = e → (s.err = none ∨ s.err = some e) → Outcome clean r e (true, s)
  /-- the last line, without newline -/
  | last (s : State) : 10 ∉ r → r ≠ [] → r.length ≤ maxTokenSize → (clean → r.length < maxTokenSize) →
      s.token = dropCR r → Inv clean s → rest s = [] → s.err = some e → Outcome clean r e (true, s)
  /-- nothing left -/
  | none (s : State) : r = [] → s.token = [] → Inv clean s → rest s = [] → s.err = some e → Outcome clean r e (false, s)
  /-- a line that does not fit -/
  | long (s : State) : maxTokenSize ≤ (takeLine r).length → s.token = [] → s.err = some .tooLong → Outcome clean r e (false, s)

theorem scanLines_line (data : Bytes) (b : Bool) (h : (10 : UInt8) ∈ data) :
    scanLines data b = ((takeLine data).length + 1, some (dropCR (takeLine data))) := by
  unfold scanLines
  rw [if_neg (by rintro ⟨-, e⟩; rw [e] at h; simp at h), findIdx_line, if_pos h]
  dsimp only
  rw [take_takeLine]

theorem scanLines_more (data : Bytes) (h : (10 : UInt8) ∉ data) : scanLines data false = (0, none) := by
  unfold scanLines
  rw [if_neg (by simp), findIdx_line, if_neg h]
  rfl

theorem scanLines_last (data : Bytes) (h : (10 : UInt8) ∉ data) (h0 : data ≠ []) :
    scanLines data true = (data.length, some (dropCR data)) := by
  unfold scanLines
  rw [if_neg (by simp [h0]), findIdx_line, if_neg h]
  rfl

theorem scanLines_nil : scanLines [] true = (0, none) := rfl

/-- Reading on, after the buffer held no complete line. -/
theorem grow_spec (clean : Prop) (s : State) (h : Inv clean s)
    (hf : ¬ ((shift s).start + (shift s).pending.length = (shift s).size ∧ maxTokenSize ≤ (shift s).size)) :
    (grow (shift s)).start + (grow (shift s)).pending.length < (grow (shift s)).size ∧
    (grow (shift s)).size ≤ maxTokenSize ∧ (grow (shift s)).pending = s.pending ∧
    (grow (shift s)).err = s.err ∧ (grow (shift s)).reader = s.reader ∧ (grow (shift s)).token = s.token := by
  have h1 := h.fits
  have h2 := h.size
  have hs : (shift s).start + (shift s).pending.length ≤ (shift s).size ∧ (shift s).size = s.size ∧
      (shift s).pending = s.pending ∧ (shift s).err = s.err ∧ (shift s).reader = s.reader ∧ (shift s).token = s.token := by
    unfold shift
    split
    · refine ⟨?_, rfl, rfl, rfl, rfl, rfl⟩
      show 0 + s.pending.length ≤ s.size
      omega
    · exact ⟨h1, rfl, rfl, rfl, rfl, rfl⟩
  obtain ⟨h3, h4, h5, h6, h7, h8⟩ := hs
  unfold grow
  by_cases hfull : (shift s).start + (shift s).pending.length = (shift s).size
  · have hsz : (shift s).size < maxTokenSize := by
      apply Nat.lt_of_not_le; intro hle; exact hf ⟨hfull, hle⟩
    rw [if_pos hfull]
    refine ⟨?_, ?_, h5, h6, h7, h8⟩
    · show 0 + (shift s).pending.length < min _ maxTokenSize
      have : (shift s).size < (if (shift s).size * 2 = 0 then 4096 else (shift s).size * 2) := by
        split <;> omega
      rw [Nat.lt_min]
      omega
    · exact Nat.min_le_right _ _
  · rw [if_neg hfull]
    exact ⟨by omega, by omega, h5, h6, h7, h8⟩

theorem drop_append_takeLine (a b : Bytes) (h : (10 : UInt8) ∈ a) : dropLine (a ++ b) = dropLine a ++ b := by
  rw [dropLine_eq, dropLine_eq, takeLine_prefix a b h, List.drop_append_of_le_length]
  have := takeLine_lt a h
  omega

theorem scanLoop_spec (clean : Prop) : ∀ (fuel : Nat) (s : State), Inv clean s →
    (if s.err = none then weight s.reader + 2 else 1) ≤ fuel →
    Outcome clean (rest s) (ending s) (scanLoop fuel s) := by
  intro fuel
  induction fuel with
  | zero => intro s _ hf; split at hf <;> omega
  | succ fuel ih =>
    intro s hi hfuel
    by_cases hnl : (10 : UInt8) ∈ s.pending
    · -- a complete line in the buffer
      have hne : s.pending ≠ [] := by intro e; rw [e] at hnl; simp at hnl
      have hts : trySplit s = (some (dropCR (takeLine s.pending)),
          { s with start := s.start + ((takeLine s.pending).length + 1), pending := s.pending.drop ((takeLine s.pending).length + 1),
                   token := dropCR (takeLine s.pending) }) := by
        unfold trySplit
        rw [if_pos (Or.inl hne), scanLines_line _ _ hnl]
        rfl
      rw [scanLoop, hts]
      dsimp only
      have hlt := takeLine_lt _ hnl
      have hfits := hi.fits
      have hsize := hi.size
      have hend : ∀ s' : State, s'.err = s.err → s'.reader = s.reader → ending s' = ending s := by
        intro s' h1 h2; unfold ending; rw [h1, h2]
      cases he : s.err with
      | none =>
        have hr : rest s = s.pending ++ (received 0 s.reader).1 := by unfold rest; rw [he]
        rw [hr]
        refine Outcome.line _ (List.mem_append_left _ hnl) ?_ ?_ ⟨?_, hsize, hi.sep, ?_, ?_⟩ ?_ ?_ ?_
        · rw [takeLine_prefix _ _ hnl]; omega
        · rw [takeLine_prefix _ _ hnl]
        · simp only [List.length_drop]; omega
        · intro _ hc; exact absurd rfl hc
        · intro hx; apply hi.ne; rw [← hx]; unfold ending; rw [he]
        · rw [drop_append_takeLine _ _ hnl, dropLine_eq]
          show _ = _
          unfold rest
          rfl
        · exact hend _ he.symm rfl
        · exact Or.inl rfl
      | some e =>
        have hr : rest s = s.pending := by unfold rest; rw [he]
        have hee : ending s = e := by unfold ending; rw [he]
        rw [hr]
        refine Outcome.line _ hnl ?_ rfl ⟨?_, hsize, hi.sep, ?_, ?_⟩ ?_ ?_ ?_
        · omega
        · simp only [List.length_drop]; omega
        · intro hc _
          simp only [List.length_drop]
          omega
        · intro hx; apply hi.ne; rw [← hx]; unfold ending; rw [he]
        · rw [dropLine_eq]
          unfold rest
          rfl
        · exact hend _ he.symm rfl
        · exact Or.inr (congrArg some hee.symm)
    · cases he : s.err with
      | some e =>
        have hr : rest s = s.pending := by unfold rest; rw [he]
        have hee : ending s = e := by unfold ending; rw [he]
        rw [hr, hee]
        by_cases hp : s.pending = []
        · have hts : trySplit s = (none, { s with token := [] }) := by
            unfold trySplit
            rw [if_pos (Or.inr (by rw [he]; simp)), hp, show decide (s.err ≠ none) = true by rw [he]; rfl, scanLines_nil]
            cases s; simp_all
          rw [scanLoop, hts]
          dsimp only
          rw [if_pos (by rw [he]; simp)]
          refine Outcome.none _ hp rfl ⟨?_, hi.size, hi.sep, ?_, ?_⟩ ?_ he
          · simp
          · intro _ _; simp [maxTokenSize]
          · show ending { s with token := [], start := 0, pending := [] } ≠ _
            have : ending { s with token := [], start := 0, pending := [] } = ending s := rfl
            rw [this]; exact hi.ne
          · show rest { s with token := [], start := 0, pending := [] } = []
            unfold rest
            rw [show ({ s with token := [], start := 0, pending := [] } : State).err = some e from he]
        · have hts : trySplit s = (some (dropCR s.pending),
              { s with start := s.start + s.pending.length, pending := s.pending.drop s.pending.length, token := dropCR s.pending }) := by
            unfold trySplit
            rw [if_pos (Or.inl hp), show decide (s.err ≠ none) = true by rw [he]; rfl, scanLines_last _ hnl hp]
            rfl
          rw [scanLoop, hts]
          dsimp only
          have hfits := hi.fits
          have hsize := hi.size
          refine Outcome.last _ hnl hp (by omega) (fun hc => hi.short hc (by rw [he]; simp)) rfl ⟨?_, hsize, hi.sep, ?_, ?_⟩ ?_ he
          · simp only [List.drop_length, List.length_nil]; omega
          · intro _ _; simp [maxTokenSize]
          · have : ending { s with start := s.start + s.pending.length, pending := s.pending.drop s.pending.length, token := dropCR s.pending } = ending s := rfl
            rw [this]; exact hi.ne
          · unfold rest
            dsimp only
            rw [he]
            simp
      | none =>
        -- read on
        rw [he] at hfuel
        rw [if_pos rfl] at hfuel
        obtain ⟨s1, tok, hts, hs1, htok⟩ : ∃ s1 tok, trySplit s = (none, s1) ∧ { s with token := tok } = s1 ∧
            (s.pending ≠ [] → tok = []) := by
          unfold trySplit
          by_cases hp : s.pending = []
          · rw [if_neg (by simp [hp, he])]
            exact ⟨_, s.token, rfl, rfl, fun h => absurd hp h⟩
          · rw [if_pos (Or.inl hp), show decide (s.err ≠ none) = false by rw [he]; rfl, scanLines_more _ hnl]
            exact ⟨_, [], rfl, rfl, fun _ => rfl⟩
        rw [scanLoop, hts]
        dsimp only
        have h1i : Inv clean s1 := by
          subst hs1
          exact ⟨hi.fits, hi.size, hi.sep, hi.short, hi.ne⟩
        have h1e : s1.err = none := by subst hs1; exact he
        have h1p : s1.pending = s.pending := by subst hs1; rfl
        have h1r : s1.reader = s.reader := by subst hs1; rfl
        have h1t : s1.token = tok := by subst hs1; rfl
        rw [if_neg (by rw [h1e]; simp)]
        by_cases hfull : (shift s1).start + (shift s1).pending.length = (shift s1).size ∧ maxTokenSize ≤ (shift s1).size
        · rw [if_pos hfull]
          have hsh : (shift s1).start = 0 ∨ shift s1 = s1 := by
            unfold shift; split
            · exact Or.inl rfl
            · exact Or.inr rfl
          have hshp : (shift s1).pending = s.pending := by
            unfold shift; split <;> exact h1p
          have hsht : (shift s1).token = tok := by
            unfold shift; split <;> exact h1t
          have hstart : (shift s1).start = 0 := by
            rcases hsh with h | h
            · exact h
            · apply Decidable.byContradiction
              intro hn
              have : shift s1 = { s1 with start := 0 } := by
                unfold shift
                rw [h] at hfull hn
                rw [if_pos ⟨by omega, Or.inl hfull.1⟩]
              rw [this] at hn
              exact hn rfl
          rw [hstart, hshp] at hfull
          have hlen : maxTokenSize ≤ s.pending.length := by omega
          have hne : s.pending ≠ [] := by intro e; rw [e] at hlen; simp [maxTokenSize] at hlen
          refine Outcome.long _ ?_ ?_ rfl
          · unfold rest; rw [he]
            exact Nat.le_trans hlen (takeLine_ge _ _ hnl)
          · show (shift s1).token = []
            rw [hsht, htok hne]
        · rw [if_neg hfull]
          obtain ⟨g1, g2, g3, g4, g5, g6⟩ := grow_spec clean s1 h1i hfull
          generalize grow (shift s1) = g at *
          have hroom : 0 < g.size - (g.start + g.pending.length) := by omega
          obtain ⟨f1, f2, f3⟩ := fill_spec _ hroom g.reader 0 (by omega)
          have hrd : g.reader = s.reader := g5.trans h1r
          have hpd : g.pending = s.pending := g3.trans h1p
          generalize hfill : fill (g.size - (g.start + g.pending.length)) 0 g.reader = f at *
          obtain ⟨data, err, r⟩ := f
          dsimp only at *
          have hrest : rest { g with pending := g.pending ++ data, err := err, reader := r } = rest s ∧
              ending { g with pending := g.pending ++ data, err := err, reader := r } = ending s := by
            unfold rest ending
            rw [he]
            dsimp only
            cases err with
            | none =>
              dsimp only at *
              rw [← hrd, f2.2.2, hpd]
              exact ⟨List.append_assoc _ _ _, rfl⟩
            | some e =>
              dsimp only at *
              rw [← hrd, f2.1, hpd]
              exact ⟨rfl, rfl⟩
          rw [← hrest.1, ← hrest.2]
          apply ih
          · refine ⟨?_, g2, ?_, ?_, ?_⟩
            · simp only [List.length_append]; omega
            · intro hc
              exact (f3 (by rw [hrd]; exact hi.sep hc)).1
            · intro hc hce
              have := (f3 (by rw [hrd]; exact hi.sep hc)).2 hce
              simp only [this, List.append_nil]
              omega
            · rw [hrest.2]; exact hi.ne
          · cases err with
            | none =>
              rw [if_pos rfl]
              have := f2.2.1
              dsimp only
              rw [hrd] at this
              omega
            | some e =>
              rw [if_neg (by simp)]
              omega

/-- More iterations than `scan` allows change nothing: the loop of `Scan` ends by itself. -/
theorem scanLoop_fuel : ∀ (fuel : Nat) (s : State), s.size ≤ maxTokenSize → s.start + s.pending.length ≤ s.size →
    (if s.err = none then weight s.reader + 2 else 1) ≤ fuel → scanLoop (fuel + 1) s = scanLoop fuel s := by
  intro fuel
  induction fuel with
  | zero => intro s _ _ hf; split at hf <;> omega
  | succ fuel ih =>
    intro s hsz hft hfuel
    rw [scanLoop, scanLoop]
    have hsp : (trySplit s).2.size ≤ maxTokenSize ∧
        ((trySplit s).1 = none → (trySplit s).2.pending.length ≤ s.pending.length ∧ (trySplit s).2.start = s.start ∨ (trySplit s).2.err ≠ none) ∧
        (trySplit s).2.size = s.size ∧ (trySplit s).2.err = s.err ∧ (trySplit s).2.reader = s.reader := by
      unfold trySplit
      split
      · refine ⟨hsz, ?_, rfl, rfl, rfl⟩
        intro hn
        dsimp only at hn ⊢
        cases he : s.err with
        | some e => right; simp
        | none =>
          left
          rw [he] at hn
          have : decide ((none : Option ScanErr) ≠ none) = false := rfl
          rw [this] at hn ⊢
          by_cases h10 : (10 : UInt8) ∈ s.pending
          · rw [scanLines_line _ _ h10] at hn; simp at hn
          · rw [scanLines_more _ h10]
            simp
      · exact ⟨hsz, fun _ => Or.inl ⟨Nat.le_refl _, rfl⟩, rfl, rfl, rfl⟩
    obtain ⟨p1, p2, p3, p4, p5⟩ := hsp
    generalize trySplit s = t at *
    obtain ⟨o, s1⟩ := t
    cases o with
    | some _ => rfl
    | none =>
      dsimp only at *
      by_cases he : s1.err = none
      · rw [if_neg (show ¬ (s1.err ≠ none) by rw [he]; simp), if_neg (show ¬ (s1.err ≠ none) by rw [he]; simp)]
        have hft1 : s1.start + s1.pending.length ≤ s1.size := by
          rcases p2 rfl with ⟨h1, h2⟩ | h
          · omega
          · exact absurd he h
        by_cases hfull : (shift s1).start + (shift s1).pending.length = (shift s1).size ∧ maxTokenSize ≤ (shift s1).size
        · rw [if_pos hfull, if_pos hfull]
        · rw [if_neg hfull, if_neg hfull]
          have hinv : Inv False { s1 with reader := [] } :=
            ⟨hft1, p1, False.elim, False.elim, by unfold ending; dsimp only; rw [he]; simp [received]⟩
          have e1 : shift { s1 with reader := [] } = { shift s1 with reader := [] } := by
            unfold shift
            dsimp only
            split <;> rfl
          obtain ⟨g1, g2, g3, g4, -, -⟩ := grow_spec False { s1 with reader := [] } hinv (by rw [e1]; exact hfull)
          rw [e1] at g1 g2 g3 g4
          have e2 : grow { shift s1 with reader := [] } = { grow (shift s1) with reader := [] } := by
            unfold grow
            dsimp only
            split <;> rfl
          rw [e2] at g1 g2 g3 g4
          have g5 : (grow (shift s1)).reader = s.reader := by
            rw [← p5]; unfold grow shift; split <;> split <;> rfl
          generalize grow (shift s1) = g at *
          dsimp only at *
          have hroom : 0 < g.size - (g.start + g.pending.length) := by omega
          obtain ⟨f1, f2, -⟩ := fill_spec _ hroom g.reader 0 (by omega)
          generalize fill (g.size - (g.start + g.pending.length)) 0 g.reader = f at *
          obtain ⟨data, err, r⟩ := f
          dsimp only at *
          apply ih
          · exact g2
          · simp only [List.length_append]; omega
          · rw [← p4, he, if_pos rfl] at hfuel
            cases err with
            | none =>
              rw [if_pos rfl]
              have := f2.2.1
              dsimp only
              rw [g5] at this
              omega
            | some e =>
              rw [if_neg (by simp)]
              omega
      · rw [if_pos he, if_pos he]

theorem scan_spec (clean : Prop) (s : State) (h : Inv clean s) : Outcome clean (rest s) (ending s) (scan s) := by
  apply scanLoop_spec clean _ s h
  split <;> omega

/-- A last line of at most 65536 bytes whose last bytes come together with the end of the file is a token. -/
theorem scanLoop_tail : ∀ (fuel : Nat) (p q : Bytes) (size : Nat) (tok : Bytes), (10 : UInt8) ∉ p → (10 : UInt8) ∉ q → q ≠ [] →
    p.length + q.length ≤ maxTokenSize → p.length ≤ size → size ≤ maxTokenSize → q.length + 2 ≤ fuel →
    ∃ s', scanLoop fuel ⟨0, p, size, none, tok, [⟨q, some .eof⟩]⟩ = (true, s') ∧ s'.token = dropCR (p ++ q) ∧ s'.err = some .eof := by
  intro fuel
  induction fuel with
  | zero => intro p q size tok _ _ _ _ _ _ h; omega
  | succ fuel ih =>
    intro p q size tok hp hq hq0 hlen hps hsz hfuel
    have hqlen : 0 < q.length := List.length_pos_iff.mpr hq0
    obtain ⟨tok', hts⟩ : ∃ tok', trySplit ⟨0, p, size, none, tok, [⟨q, some .eof⟩]⟩ =
        (none, ⟨0, p, size, none, tok', [⟨q, some .eof⟩]⟩) := by
      unfold trySplit
      dsimp only
      split
      · rw [show decide ((none : Option ScanErr) ≠ none) = false from rfl, scanLines_more _ hp]
        exact ⟨[], rfl⟩
      · exact ⟨tok, rfl⟩
    rw [scanLoop, hts]
    dsimp only
    rw [if_neg (by simp)]
    have hsh : shift ⟨0, p, size, none, tok', [⟨q, some .eof⟩]⟩ = ⟨0, p, size, none, tok', [⟨q, some .eof⟩]⟩ := by
      unfold shift
      rw [if_neg (by simp)]
    rw [hsh]
    dsimp only
    rw [if_neg (by omega)]
    obtain ⟨size', hg, h1, h2⟩ : ∃ size', grow ⟨0, p, size, none, tok', [⟨q, some .eof⟩]⟩ =
        ⟨0, p, size', none, tok', [⟨q, some .eof⟩]⟩ ∧ p.length < size' ∧ size' ≤ maxTokenSize := by
      unfold grow
      dsimp only
      split
      · refine ⟨_, rfl, ?_, Nat.min_le_right _ _⟩
        rw [Nat.lt_min]
        refine ⟨?_, by omega⟩
        split <;> omega
      · exact ⟨size, rfl, by omega, hsz⟩
    rw [hg]
    dsimp only
    rw [fill]
    by_cases hroom : size' - (0 + p.length) < q.length
    · rw [if_pos hroom]
      dsimp only
      have e : p ++ q = (p ++ q.take (size' - (0 + p.length))) ++ q.drop (size' - (0 + p.length)) := by
        rw [List.append_assoc, List.take_append_drop]
      rw [e]
      apply ih
      · rw [List.mem_append, not_or]
        exact ⟨hp, fun h => hq (List.mem_of_mem_take h)⟩
      · exact fun h => hq (List.mem_of_mem_drop h)
      · intro h
        have := congrArg List.length h
        rw [List.length_drop, List.length_nil] at this
        omega
      · rw [List.length_append, List.length_take, List.length_drop]; omega
      · rw [List.length_append, List.length_take]; omega
      · exact h2
      · rw [List.length_drop]; omega
    · rw [if_neg hroom]
      dsimp only [ScanErr.ofRead]
      obtain ⟨fuel', rfl⟩ : ∃ f, fuel = f + 1 := ⟨fuel - 1, by omega⟩
      have h10 : (10 : UInt8) ∉ p ++ q := by
        rw [List.mem_append, not_or]; exact ⟨hp, hq⟩
      rw [scanLoop]
      unfold trySplit
      dsimp only
      rw [if_pos (Or.inr (by simp)), show decide (some ScanErr.eof ≠ none) = true from rfl,
        scanLines_last _ h10 (by simp [hq0])]
      exact ⟨_, rfl, rfl, rfl⟩

end Goslide.Bufio
