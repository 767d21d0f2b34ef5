import Verif.Spec.LeftOver
import Verif.Props.Xcrepo
import Verif.Props.Configuration
/-
C35: the example after an error. C41: which keys name a field, null elements.
-/
namespace Goslide.Props
open Spec Xcrepo Configuration
variable {F : Type} [GoFloat F]

theorem labelsLoop_left (nL : Int) (bad : Bytes) (post : List Bytes) (done : List Int) (h : ¬ IsLabel nL bad) :
    ∃ e, labelsLoop nL done (bad :: post) = (done ++ List.replicate (post.length + 1) 0, some e) := by
  rw [labelsLoop]
  cases ha : atoi bad with
  | none => exact ⟨_, rfl⟩
  | some v =>
    dsimp only
    rw [if_pos (by
      apply Decidable.byContradiction
      intro hv
      exact h ⟨v, (atoi_iff _ _).mp ha, by omega, by omega⟩)]
    exact ⟨_, rfl⟩

theorem featuresLoop_left (pf : Bytes → Option F) (nF : Int) (bad : Bytes) (post : List Bytes) (done : List (Pair F))
    (h : ¬ IsFeature pf nF bad) :
    ∃ e, featuresLoop pf nF done (bad :: post) = (done ++ List.replicate (post.length + 1) { Index := 0, Value := GoFloat.zero }, some e) := by
  rw [featuresLoop]
  split
  · rename_i a b hs
    have hj := join_split 58 bad
    rw [hs] at hj
    have hb : 58 ∉ b := split_free 58 bad b (by rw [hs]; simp)
    cases ha : atoi a with
    | none => exact ⟨_, rfl⟩
    | some v =>
      have hw := (atoi_iff a v).mp ha
      dsimp only
      by_cases hv : v < 0 ∨ v ≥ nF
      · rw [if_pos hv]; exact ⟨_, rfl⟩
      · rw [if_neg hv]
        cases hp : pf b with
        | none => exact ⟨_, rfl⟩
        | some x => exact absurd ⟨⟨v, x⟩, ⟨a, b, hj.symm, hb, hw, hp⟩, by dsimp only; omega, by dsimp only; omega⟩ h
  · exact ⟨_, rfl⟩

/-- `Scan` on a line, with the example. -/
theorem scan_ex (pf : Bytes → Option F) (s : Scanner F) (h : s.Err = none) (hr : s.buf.rest ≠ [])
    (hl : (takeLine s.buf.rest).length < maxTokenSize) (v : Bytes) (vs : List Bytes)
    (hs : split 32 (dropCR (takeLine s.buf.rest)) = v :: vs) :
    (scan pf s).2.ex =
      match labelPart s.numLabels v with
      | (ls, some _) => { Features := [], Labels := ls }
      | (ls, none) => if vs.length = 0 then { Features := [], Labels := ls }
          else { Features := (featuresLoop pf s.numFeatures [] vs).1, Labels := ls } := by
  obtain ⟨h1, h2⟩ := (Err_none_iff s).mp h
  have hb : bufScan s.buf = (true, (advance s).buf) := by
    unfold bufScan
    rw [if_neg (by rw [h2]; decide), if_neg hr, if_neg (by omega)]
    rfl
  have hscan : scan pf s = (match split 32 (dropCR (takeLine s.buf.rest)) with
      | [] => (false, { advance s with ex := { Features := [], Labels := [] }, err := some .notEnoughFields })
      | v :: vs =>
        let (ok, s') := parseLabels { advance s with ex := { Features := [], Labels := [] } } v
        if !ok then (false, s') else parseFeatures pf s' vs) := by
    unfold scan
    refine (if_neg (fun hn => hn h)).trans ?_
    dsimp only
    rw [hb]
    dsimp only
    rw [if_neg (by show ¬ ((!true || s.buf.tooLong) = true); rw [h2]; decide)]
    rfl
  rw [hscan, hs]
  dsimp only
  rw [parseLabels_eq]
  have hn : (advance s).numLabels = s.numLabels := rfl
  dsimp only
  rw [hn]
  generalize labelPart s.numLabels v = r
  obtain ⟨ls, err⟩ := r
  cases err with
  | some e => rfl
  | none =>
    dsimp only
    rw [if_neg (show ¬ ((!true) = true) by decide)]
    unfold parseFeatures
    by_cases hvs : vs.length = 0
    · rw [if_pos hvs, if_pos hvs]
    · rw [if_neg hvs, if_neg hvs]
      dsimp only
      have hn : (advance s).numFeatures = s.numFeatures := rfl
      rw [hn]
      generalize featuresLoop pf s.numFeatures [] vs = r
      obtain ⟨fs, err⟩ := r
      cases err <;> rfl

/-- C35, after an error. When `Scan` has returned false because of a bad line, `Example()` is not empty but holds what was parsed
before the first bad token, with zeros in place of that token and the ones after it. -/
theorem C35_left_over (parseFloat : Bytes → Option F) (s : Scanner F) (n : Nat) (line rest : Bytes) (e : Example F)
    (he : s.Err = none) (hline : FirstLine s.buf.rest n line rest) (hn : n < 65536)
    (ho : LeftOver parseFloat s.numFeatures s.numLabels line e) :
    (scan parseFloat s).1 = false ∧ (scan parseFloat s).2.ex = e := by
  obtain ⟨h1, h2, h3, h4⟩ := firstLine_spec hline
  have hlen : (takeLine s.buf.rest).length < maxTokenSize := by rw [h2]; exact hn
  have hex := scan_ex parseFloat s he h1 hlen
  have hsc := scan_line parseFloat s he h1 hlen
  rw [h3] at hex hsc
  cases ho with
  | label pre post bad ls str tail hstr hne h32 hb hpost hpre hbad htail =>
    have hvs : ∃ vs, split 32 (str ++ tail) = str :: vs := by
      rcases htail with rfl | ⟨rest, rfl⟩
      · rw [List.append_nil]; exact ⟨[], split_single 32 str h32⟩
      · exact ⟨_, split_append 32 str rest h32⟩
    obtain ⟨vs, hvs⟩ := hvs
    obtain ⟨er, hl⟩ := labelsLoop_left s.numLabels bad post ls hbad
    have hlp : labelPart s.numLabels str = (ls ++ List.replicate (post.length + 1) 0, some er) := by
      unfold labelPart
      rw [if_neg (by intro hz; exact hne (List.length_eq_zero_iff.mp hz)), hstr,
        split_join 44 _ (by simp) (by
          intro t ht
          rcases List.mem_append.mp ht with ht | ht
          · exact comma_free hpre t ht
          · rcases List.mem_cons.mp ht with rfl | ht
            · exact hb
            · exact hpost t ht), labelsLoop_ok s.numLabels hpre, List.nil_append, hl]
    rw [lineResult_label_error parseFloat _ _ str tail er h32 htail (by rw [hlp])] at hsc
    obtain ⟨x, hx⟩ := hsc
    refine ⟨by rw [hx], ?_⟩
    rw [hex _ _ hvs, hlp]
  | missing _ ls h32 hl =>
    have hvs := split_single 32 line h32
    have hlp := labelPart_ok _ _ _ hl
    rw [(outcome_iff _ _ _ _ _).mp (LineOutcome.missingFeatures line ls h32 hl)] at hsc
    obtain ⟨x, hx⟩ := hsc
    refine ⟨by rw [hx], ?_⟩
    rw [hex _ _ hvs, hlp]
    rfl
  | feature str ls pre post bad ps h32 hl hpre hb hpost hbad =>
    have hvs := split_append 32 str (joinWith 32 (pre ++ bad :: post)) h32
    rw [split_join 32 _ (by simp) (by
          intro t ht
          rcases List.mem_append.mp ht with ht | ht
          · exact (all2_left hpre t ht).elim (fun _ h => h.1)
          · rcases List.mem_cons.mp ht with rfl | ht
            · exact hb
            · exact hpost t ht)] at hvs
    have hlp := labelPart_ok _ _ _ hl
    obtain ⟨er, hf⟩ := featuresLoop_left parseFloat s.numFeatures bad post ps hbad
    have hf' : featuresLoop parseFloat s.numFeatures [] (pre ++ bad :: post) =
        (ps ++ List.replicate (post.length + 1) { Index := 0, Value := GoFloat.zero }, some er) := by
      rw [featuresLoop_ok parseFloat s.numFeatures hpre, List.nil_append, hf]
    have hres : lineResult parseFloat s.numFeatures s.numLabels (str ++ 32 :: joinWith 32 (pre ++ bad :: post)) = .error er := by
      unfold lineResult
      rw [hvs]
      dsimp only
      rw [hlp]
      dsimp only
      rw [if_neg (by simp), hf']
    rw [hres] at hsc
    obtain ⟨x, hx⟩ := hsc
    refine ⟨by rw [hx], ?_⟩
    rw [hex _ _ hvs, hlp]
    dsimp only
    rw [if_neg (by simp), hf']

theorem first_bad {α β : Type} (R : α → β → Prop) (l : List α) :
    (∃ bs, All2 R l bs) ∨ ∃ pre x post bs, l = pre ++ x :: post ∧ All2 R pre bs ∧ ¬ ∃ b, R x b := by
  induction l with
  | nil => exact .inl ⟨[], .nil⟩
  | cons x l ih =>
    by_cases hx : ∃ b, R x b
    · obtain ⟨b, hb⟩ := hx
      rcases ih with ⟨bs, h⟩ | ⟨pre, y, post, bs, rfl, h, hy⟩
      · exact .inl ⟨b :: bs, .cons hb h⟩
      · exact .inr ⟨x :: pre, y, post, b :: bs, rfl, .cons hb h, hy⟩
    · exact .inr ⟨[], x, l, [], rfl, .nil, hx⟩

/-- C35, after an error, is complete: each line is either a good line or leaves an example as described. -/
theorem C35_left_over_total (parseFloat : Bytes → Option F) (nF nL : Int) (line : Bytes) :
    (∃ e, LineOutcome parseFloat nF nL line (.ok e)) ∨ ∃ e, LeftOver parseFloat nF nL line e := by
  obtain ⟨v, vs, hs⟩ := List.exists_cons_of_ne_nil (split_ne_nil 32 line)
  have hj := join_split 32 line
  rw [hs] at hj
  have hfree := split_free 32 line
  rw [hs] at hfree
  have h32 : 32 ∉ v := hfree v (by simp)
  have hl : (∃ ls, WritesLabels nL v ls) ∨ v ≠ [] ∧ ∃ pre bad post ls, split 44 v = pre ++ bad :: post ∧
      All2 (fun t l => WritesInt t l ∧ 0 ≤ l ∧ l < nL) pre ls ∧ ¬ IsLabel nL bad := by
    by_cases hv : v = []
    · exact .inl ⟨[], .inl ⟨hv, rfl⟩⟩
    · rcases first_bad (fun t l => WritesInt t l ∧ 0 ≤ l ∧ l < nL) (split 44 v) with ⟨ls, h⟩ | ⟨pre, x, post, ls, h1, h2, h3⟩
      · exact .inl ⟨ls, .inr ⟨_, split_ne_nil 44 v, (join_split 44 v).symm, h⟩⟩
      · exact .inr ⟨hv, pre, x, post, ls, h1, h2, h3⟩
  rcases hl with ⟨ls, hl⟩ | ⟨hv, pre, bad, post, ls, h1, h2, h3⟩
  · cases hvs : vs with
    | nil =>
      subst hvs
      have : line = v := by rw [← hj]; rfl
      rw [this]
      exact .inr ⟨_, .missing v ls h32 hl⟩
    | cons u us =>
      have hne : vs ≠ [] := by rw [hvs]; simp
      rw [joinWith_cons 32 v vs hne] at hj
      have hsp : ∀ t ∈ vs, 32 ∉ t := fun t ht => hfree t (by simp [ht])
      rw [← hj]
      rcases first_bad (fun t p => 32 ∉ t ∧ WritesFeature parseFloat t p ∧ 0 ≤ p.Index ∧ p.Index < nF) vs with
        ⟨ps, h⟩ | ⟨pre, x, post, ps, h1, h2, h3⟩
      · exact .inl ⟨_, .ok v vs { Features := ps, Labels := ls } h32 hl hne h⟩
      · rw [h1] at hsp ⊢
        have hx : 32 ∉ x := hsp x (by simp)
        exact .inr ⟨_, .feature v ls pre post x ps h32 hl h2 hx (fun t ht => hsp t (by simp [ht]))
          (fun ⟨p, hp⟩ => h3 ⟨p, hx, hp⟩)⟩
  · have hform : ∃ tail, (tail = [] ∨ ∃ rest, tail = 32 :: rest) ∧ line = v ++ tail := by
      cases vs with
      | nil => exact ⟨[], Or.inl rfl, by rw [← hj]; simp [joinWith]⟩
      | cons u us => exact ⟨_, Or.inr ⟨_, rfl⟩, by rw [← hj]; rfl⟩
    obtain ⟨tail, htail, rfl⟩ := hform
    have hf := split_free 44 v
    rw [h1] at hf
    exact .inr ⟨_, .label pre post bad ls v tail (by rw [← h1, join_split]) hv h32 (hf bad (by simp))
      (fun t ht => hf t (by simp [ht])) h2 h3 htail⟩

-- two good labels, a bad one, one more; two good features, a bad one, one more
example : [bytes "0,2,7,1 1:1", bytes "1,2", bytes "2 1:3 0:4 9:1 2:2"].map
    (fun l => (scan toyParse { (newScanner (bytes "2 5 3\n") : Scanner Rat) with
        buf := { rest := l ++ [10], tooLong := false, text := [] } }).2.ex) =
    [⟨[], [0, 2, 0, 0]⟩, ⟨[], [1, 2]⟩, ⟨[⟨1, 3⟩, ⟨0, 4⟩, ⟨0, 0⟩, ⟨0, 0⟩], [2]⟩] := by decide +kernel

/-! ### C41 -/

theorem fold_pairs : ∀ p ∈ letterPairs, foldChar p.1 = p.2 ∧ foldChar p.2 = p.2 := by decide

theorem fold_variant (c : Char) : Variant c (foldChar c) := by
  unfold foldChar
  split
  · rename_i h
    have key : ∀ n, n < 26 → (Char.ofNat (97 + n), Char.ofNat (97 + n - 32)) ∈ letterPairs := by decide
    have h1 : 97 ≤ c.toNat := h.1
    have h2 : c.toNat ≤ 122 := h.2
    have := key (c.toNat - 97) (by omega)
    rw [show 97 + (c.toNat - 97) = c.toNat by omega, Char.ofNat_toNat] at this
    exact .inr this
  · split
    · rename_i h
      have : c = 'ſ' := by rw [← Char.ofNat_toNat c, h]
      subst this
      exact .inr (by decide)
    · split
      · rename_i h
        have : c = 'K' := by rw [← Char.ofNat_toNat c, h]
        subst this
        exact .inr (by decide)
      · exact .inl rfl

theorem foldChar_iff (a b : Char) : foldChar a = foldChar b ↔ SameLetter a b := by
  constructor
  · intro h
    exact .inr ⟨foldChar a, fold_variant a, h ▸ fold_variant b⟩
  · rintro (rfl | ⟨C, ha, hb⟩)
    · rfl
    · rcases ha with rfl | ha <;> rcases hb with rfl | hb
      · rfl
      · rw [(fold_pairs _ hb).1]; exact (fold_pairs _ hb).2
      · rw [(fold_pairs _ ha).1]; exact ((fold_pairs _ ha).2).symm
      · rw [(fold_pairs _ ha).1, (fold_pairs _ hb).1]

/-- C41, names. The comparison of keys in the other theorems about C41 is equality up to case, as `encoding/json` defines it. -/
theorem C41_same_key (a b : String) : foldName a = foldName b ↔ SameKey a b := by
  unfold foldName SameKey
  generalize a.toList = l
  generalize b.toList = m
  constructor
  · intro h
    induction l generalizing m with
    | nil =>
      cases m with
      | nil => exact .nil
      | cons => simp at h
    | cons x l ih =>
      cases m with
      | nil => simp at h
      | cons y m =>
        rw [List.map_cons, List.map_cons, List.cons.injEq] at h
        exact .cons ((foldChar_iff _ _).mp h.1) (ih m h.2)
  · intro h
    induction h with
    | nil => rfl
    | cons h _ ih => rw [List.map_cons, List.map_cons, ih, (foldChar_iff _ _).mpr h]

/-- C41, null elements. In an array of integers `null` leaves an element as it is, so it stands for the former element of the
same position, or 0. -/
theorem C41_null_ints (l : List Json) (old ns : List Int) (h : decodeInts l old = some ns) :
    ns.length = l.length ∧ ∀ i : Nat, (l[i]? = some Json.null → ns[i]? = some (old[i]?.getD 0)) ∧
      (∀ lit, l[i]? = some (Json.num lit) → ∃ n, ns[i]? = some n ∧ WritesInt lit n) := by
  induction l generalizing old ns with
  | nil => cases h; simp
  | cons j l ih =>
    have hold : ∀ i : Nat, old.tail[i]? = old[i + 1]? := by intro i; simp
    cases j <;> simp only [decodeInts, reduceCtorEq] at h
    · cases hd : decodeInts l old.tail with
      | none => rw [hd] at h; cases h
      | some ms =>
        rw [hd] at h
        cases h
        obtain ⟨h1, h2⟩ := ih _ _ hd
        refine ⟨by simp [h1], ?_⟩
        intro i
        cases i with
        | zero =>
          cases old <;> simp
        | succ i =>
          simp only [List.getElem?_cons_succ]
          rw [← hold]
          exact h2 i
    · rename_i lit
      cases ha : atoi lit with
      | none => rw [ha] at h; cases h
      | some n =>
        rw [ha, Option.bind_some] at h
        cases hd : decodeInts l old.tail with
        | none => rw [hd] at h; cases h
        | some ms =>
          rw [hd] at h
          cases h
          obtain ⟨h1, h2⟩ := ih _ _ hd
          refine ⟨by simp [h1], ?_⟩
          intro i
          cases i with
          | zero =>
            refine ⟨by simp, ?_⟩
            intro lit' h'
            simp only [List.getElem?_cons_zero, Option.some.injEq, Json.num.injEq] at h'
            subst h'
            exact ⟨n, by simp, (atoi_iff _ _).mp ha⟩
          | succ i =>
            simp only [List.getElem?_cons_succ]
            rw [← hold]
            exact h2 i

/-- C41, null elements of arrays of floats. -/
theorem C41_null_floats (pf : Bytes → Option F) (l : List Json) (old ns : List F) (h : decodeFloats pf l old = some ns) :
    ns.length = l.length ∧ ∀ i : Nat, (l[i]? = some Json.null → ns[i]? = some (old[i]?.getD GoFloat.zero)) ∧
      (∀ lit, l[i]? = some (Json.num lit) → ∃ n, ns[i]? = some n ∧ pf lit = some n) := by
  induction l generalizing old ns with
  | nil => cases h; simp
  | cons j l ih =>
    have hold : ∀ i : Nat, old.tail[i]? = old[i + 1]? := by intro i; simp
    cases j <;> simp only [decodeFloats, reduceCtorEq] at h
    · cases hd : decodeFloats pf l old.tail with
      | none => rw [hd] at h; cases h
      | some ms =>
        rw [hd] at h
        cases h
        obtain ⟨h1, h2⟩ := ih _ _ hd
        refine ⟨by simp [h1], ?_⟩
        intro i
        cases i with
        | zero =>
          cases old <;> simp
        | succ i =>
          simp only [List.getElem?_cons_succ]
          rw [← hold]
          exact h2 i
    · rename_i lit
      cases ha : pf lit with
      | none => rw [ha] at h; cases h
      | some n =>
        rw [ha, Option.bind_some] at h
        cases hd : decodeFloats pf l old.tail with
        | none => rw [hd] at h; cases h
        | some ms =>
          rw [hd] at h
          cases h
          obtain ⟨h1, h2⟩ := ih _ _ hd
          refine ⟨by simp [h1], ?_⟩
          intro i
          cases i with
          | zero =>
            refine ⟨by simp, ?_⟩
            intro lit' h'
            simp only [List.getElem?_cons_zero, Option.some.injEq, Json.num.injEq] at h'
            subst h'
            exact ⟨n, by simp, ha⟩
          | succ i =>
            simp only [List.getElem?_cons_succ]
            rw [← hold]
            exact h2 i

example : SameKey "batchſize" "BatchSize" := by
  rw [← C41_same_key]; decide +kernel
example : decodeInts [.null, .num (bytes "7"), .null, .null] [1, 2, 3] = some [1, 7, 3, 0] := by decide +kernel

end Goslide.Props
