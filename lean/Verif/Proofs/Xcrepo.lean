import Verif.Proofs.Strings
/-
Lemmas on the xcrepo scanner.
-/
set_option linter.unusedSectionVars false
namespace Goslide.Xcrepo
open Spec
variable {F : Type} [GoFloat F]

theorem all2_append {α β : Type} {R : α → β → Prop} {as bs : List α} {cs ds : List β}
    (h1 : All2 R as cs) (h2 : All2 R bs ds) : All2 R (as ++ bs) (cs ++ ds) := by
  induction h1 with
  | nil => exact h2
  | cons h _ ih => exact All2.cons h ih

theorem all2_left {α β : Type} {R : α → β → Prop} {as : List α} {cs : List β}
    (h : All2 R as cs) : ∀ a ∈ as, ∃ c, R a c := by
  induction h with
  | nil => intro a ha; simp at ha
  | cons h _ ih =>
    intro a ha
    rcases List.mem_cons.mp ha with rfl | ha
    · exact ⟨_, h⟩
    · exact ih a ha

theorem all2_right {α β : Type} {R : α → β → Prop} {as : List α} {cs : List β}
    (h : All2 R as cs) : ∀ c ∈ cs, ∃ a ∈ as, R a c := by
  induction h with
  | nil => intro a ha; simp at ha
  | cons h _ ih =>
    intro a ha
    rcases List.mem_cons.mp ha with rfl | ha
    · exact ⟨_, by simp, h⟩
    · obtain ⟨x, hx, h⟩ := ih a ha
      exact ⟨x, by simp [hx], h⟩

theorem all2_length {α β : Type} {R : α → β → Prop} {as : List α} {cs : List β}
    (h : All2 R as cs) : as.length = cs.length := by
  induction h with
  | nil => rfl
  | cons _ _ ih => simp [ih]

theorem all2_map {α β γ : Type} {R : α → β → Prop} (f : γ → α) (g : γ → β) (l : List γ)
    (h : ∀ x ∈ l, R (f x) (g x)) : All2 R (l.map f) (l.map g) := by
  induction l with
  | nil => exact All2.nil
  | cons x l ih => exact All2.cons (h x (by simp)) (ih (fun y hy => h y (by simp [hy])))

/-! ### Labels -/

abbrev GoodLabel (nL : Int) (t : Bytes) (l : Int) : Prop := WritesInt t l ∧ 0 ≤ l ∧ l < nL

theorem labelsLoop_ok (nL : Int) {toks : List Bytes} {ls : List Int} (h : All2 (GoodLabel nL) toks ls) :
    ∀ (done : List Int) (rest : List Bytes),
      labelsLoop nL done (toks ++ rest) = labelsLoop nL (done ++ ls) rest := by
  induction h with
  | nil => intro done rest; simp
  | cons h _ ih =>
    intro done rest
    rw [List.cons_append, labelsLoop, (atoi_iff _ _).mpr h.1]
    dsimp only
    rw [if_neg (by omega), ih, List.append_assoc]; rfl

theorem labelsLoop_cases (nL : Int) (toks : List Bytes) : ∀ done : List Int,
    (∃ ls, All2 (GoodLabel nL) toks ls ∧ labelsLoop nL done toks = (done ++ ls, none)) ∨
    (∃ pre bad post ls, toks = pre ++ bad :: post ∧ All2 (GoodLabel nL) pre ls ∧ (¬ ∃ v, WritesInt bad v) ∧
      (labelsLoop nL done toks).2 = some .malformedLabels) ∨
    (∃ pre bad post ls v, toks = pre ++ bad :: post ∧ All2 (GoodLabel nL) pre ls ∧ WritesInt bad v ∧
      (v < 0 ∨ nL ≤ v) ∧ (labelsLoop nL done toks).2 = some .labelOutOfBounds) := by
  induction toks with
  | nil => intro done; exact Or.inl ⟨[], All2.nil, by simp [labelsLoop]⟩
  | cons t toks ih =>
    intro done
    rw [labelsLoop]
    cases ht : atoi t with
    | none =>
      exact Or.inr (Or.inl ⟨[], t, toks, [], rfl, All2.nil, (atoi_none_iff t).mp ht, rfl⟩)
    | some v =>
      have hw := (atoi_iff t v).mp ht
      dsimp only
      by_cases hv : v < 0 ∨ v ≥ nL
      · rw [if_pos hv]
        exact Or.inr (Or.inr ⟨[], t, toks, [], v, rfl, All2.nil, hw, hv, rfl⟩)
      · rw [if_neg hv]
        have hg : GoodLabel nL t v := ⟨hw, by omega, by omega⟩
        rcases ih (done ++ [v]) with ⟨ls, h1, h2⟩ | ⟨pre, bad, post, ls, h1, h2, h3, h4⟩ |
            ⟨pre, bad, post, ls, w, h1, h2, h3, h4, h5⟩
        · exact Or.inl ⟨v :: ls, All2.cons hg h1, by rw [h2, List.append_assoc]; rfl⟩
        · exact Or.inr (Or.inl ⟨t :: pre, bad, post, v :: ls, by rw [h1]; rfl, All2.cons hg h2, h3, h4⟩)
        · exact Or.inr (Or.inr ⟨t :: pre, bad, post, v :: ls, w, by rw [h1]; rfl, All2.cons hg h2, h3, h4, h5⟩)

/-- Labels read from the label part of a line. -/
def labelPart (nL : Int) (v : Bytes) : List Int × Option Err :=
  if v.length = 0 then ([], none) else labelsLoop nL [] (split 44 v)

theorem comma_free {nL : Int} {toks : List Bytes} {ls : List Int} (h : All2 (GoodLabel nL) toks ls) :
    ∀ t ∈ toks, 44 ∉ t := by
  intro t ht
  obtain ⟨l, hl⟩ := all2_left h t ht
  exact hl.1.not_mem 44 (by decide)

theorem labelPart_ok (nL : Int) (v : Bytes) (ls : List Int) (h : WritesLabels nL v ls) :
    labelPart nL v = (ls, none) := by
  unfold labelPart
  rcases h with ⟨rfl, rfl⟩ | ⟨toks, hne, rfl, h⟩
  · rfl
  · have hs := split_join 44 toks hne (comma_free h)
    have hne2 : joinWith 44 toks ≠ [] := by
      intro he
      rw [he] at hs
      cases h with
      | nil => exact hne rfl
      | cons h _ =>
        simp only [split, List.cons.injEq] at hs
        exact h.1.ne_nil hs.1.symm
    rw [if_neg (by intro he; exact hne2 (List.length_eq_zero_iff.mp he)), hs]
    have := labelsLoop_ok nL h [] []
    rw [List.append_nil] at this
    rw [this, List.nil_append]; rfl

theorem labelPart_bad (nL : Int) (pre post : List Bytes) (bad : Bytes) (ls : List Int)
    (hne : joinWith 44 (pre ++ bad :: post) ≠ []) (hb : 44 ∉ bad) (h : All2 (GoodLabel nL) pre ls)
    (hv : ¬ ∃ v, WritesInt bad v) :
    (labelPart nL (joinWith 44 (pre ++ bad :: post))).2 = some .malformedLabels := by
  unfold labelPart
  obtain ⟨post', hp⟩ := split_join_append 44 pre post bad (comma_free h) hb
  rw [if_neg (by intro he; exact hne (List.length_eq_zero_iff.mp he)), hp, labelsLoop_ok nL h]
  rw [labelsLoop, (atoi_none_iff bad).mpr hv]

theorem joinWith_ne_nil (sep : UInt8) (pre post : List Bytes) (bad : Bytes) (h : bad ≠ []) :
    joinWith sep (pre ++ bad :: post) ≠ [] := by
  obtain ⟨c, cs, rfl⟩ := List.exists_cons_of_ne_nil h
  intro he
  have := mem_joinWith_of sep c (pre ++ (c :: cs) :: post) (c :: cs) (by simp) (by simp)
  rw [he] at this
  simp at this

theorem labelPart_oob (nL : Int) (pre post : List Bytes) (bad : Bytes) (v : Int) (ls : List Int)
    (h : All2 (GoodLabel nL) pre ls) (hw : WritesInt bad v) (hv : v < 0 ∨ nL ≤ v) :
    (labelPart nL (joinWith 44 (pre ++ bad :: post))).2 = some .labelOutOfBounds := by
  unfold labelPart
  obtain ⟨post', hp⟩ := split_join_append 44 pre post bad (comma_free h) (hw.not_mem 44 (by decide))
  have hne := joinWith_ne_nil 44 pre post bad hw.ne_nil
  rw [if_neg (by intro he; exact hne (List.length_eq_zero_iff.mp he)), hp, labelsLoop_ok nL h]
  rw [labelsLoop, (atoi_iff bad v).mpr hw]
  dsimp only
  rw [if_pos hv]

theorem labelPart_cases (nL : Int) (v : Bytes) :
    (∃ ls, WritesLabels nL v ls ∧ labelPart nL v = (ls, none)) ∨
    (∃ pre post bad ls, v = joinWith 44 (pre ++ bad :: post) ∧ v ≠ [] ∧ 44 ∉ bad ∧
      All2 (GoodLabel nL) pre ls ∧ (¬ ∃ v, WritesInt bad v) ∧ (labelPart nL v).2 = some .malformedLabels) ∨
    (∃ pre post bad w ls, v = joinWith 44 (pre ++ bad :: post) ∧
      All2 (GoodLabel nL) pre ls ∧ WritesInt bad w ∧ (w < 0 ∨ nL ≤ w) ∧
      (labelPart nL v).2 = some .labelOutOfBounds) := by
  by_cases h0 : v = []
  · exact Or.inl ⟨[], Or.inl ⟨h0, rfl⟩, by subst h0; rfl⟩
  · have hj := join_split 44 v
    have hlp : labelPart nL v = labelsLoop nL [] (split 44 v) := by
      unfold labelPart
      rw [if_neg (by intro he; exact h0 (List.length_eq_zero_iff.mp he))]
    rw [hlp]
    rcases labelsLoop_cases nL (split 44 v) [] with ⟨ls, h1, h2⟩ | ⟨pre, bad, post, ls, h1, h2, h3, h4⟩ |
            ⟨pre, bad, post, ls, w, h1, h2, h3, h4, h5⟩
    · exact Or.inl ⟨ls, Or.inr ⟨_, split_ne_nil 44 v, hj.symm, h1⟩, h2⟩
    · refine Or.inr (Or.inl ⟨pre, post, bad, ls, by rw [← h1, hj], h0, ?_, h2, h3, h4⟩)
      exact split_free 44 v bad (by rw [h1]; simp)
    · exact Or.inr (Or.inr ⟨pre, post, bad, w, ls, by rw [← h1, hj], h2, h3, h4, h5⟩)

/-! ### Features -/

abbrev GoodFeature (pf : Bytes → Option F) (nF : Int) (t : Bytes) (p : Pair F) : Prop :=
  32 ∉ t ∧ WritesFeature pf t p ∧ 0 ≤ p.Index ∧ p.Index < nF

theorem split_pair (a b : Bytes) (v : Int) (ha : WritesInt a v) (hb : 58 ∉ b) :
    split 58 (a ++ 58 :: b) = [a, b] := by
  rw [split_append 58 a b (ha.not_mem 58 (by decide)), split_single 58 b hb]

theorem featuresLoop_ok (pf : Bytes → Option F) (nF : Int) {toks : List Bytes} {ps : List (Pair F)}
    (h : All2 (GoodFeature pf nF) toks ps) : ∀ (done : List (Pair F)) (rest : List Bytes),
      featuresLoop pf nF done (toks ++ rest) = featuresLoop pf nF (done ++ ps) rest := by
  induction h with
  | nil => intro done rest; simp
  | @cons t p as bs h _ ih =>
    intro done rest
    obtain ⟨-, ⟨a, b, rfl, hb, ha, hp⟩, h1, h2⟩ := h
    rw [List.cons_append, featuresLoop, split_pair a b _ ha hb]
    dsimp only
    rw [(atoi_iff a _).mpr ha]
    dsimp only
    rw [if_neg (by omega), hp]
    dsimp only
    rw [ih, List.append_assoc]; rfl

theorem featuresLoop_bad (pf : Bytes → Option F) (nF : Int) (t : Bytes) (rest : List Bytes) (done : List (Pair F))
    (h : NotFeature pf nF t) : (featuresLoop pf nF done (t :: rest)).2 = some .malformedFeatures := by
  rw [featuresLoop]
  split
  · rename_i a b hs
    have hj := join_split 58 t
    rw [hs] at hj
    have hb : 58 ∉ b := split_free 58 t b (by rw [hs]; simp)
    have ht : t = a ++ 58 :: b := hj.symm
    cases ha : atoi a with
    | none => rfl
    | some v =>
      have hw := (atoi_iff a v).mp ha
      dsimp only
      by_cases hv : v < 0 ∨ v ≥ nF
      · exact absurd ⟨a, b, v, ht, hb, hw, hv⟩ h.2
      · rw [if_neg hv]
        cases hp : pf b with
        | none => rfl
        | some x => exact absurd ⟨⟨v, x⟩, a, b, ht, hb, hw, hp⟩ h.1
  · rfl

theorem featuresLoop_oob (pf : Bytes → Option F) (nF : Int) (a b : Bytes) (v : Int) (rest : List Bytes)
    (done : List (Pair F)) (ha : WritesInt a v) (hb : 58 ∉ b) (hv : v < 0 ∨ nF ≤ v) :
    (featuresLoop pf nF done ((a ++ 58 :: b) :: rest)).2 = some .featureIndexOutOfBounds := by
  rw [featuresLoop]
  rw [split_pair a b v ha hb]
  dsimp only
  rw [(atoi_iff a v).mpr ha]
  dsimp only
  rw [if_pos hv]

theorem featuresLoop_cases (pf : Bytes → Option F) (nF : Int) (toks : List Bytes) : ∀ done : List (Pair F),
    (∀ t ∈ toks, 32 ∉ t) →
    (∃ ps, All2 (GoodFeature pf nF) toks ps ∧ featuresLoop pf nF done toks = (done ++ ps, none)) ∨
    (∃ pre bad post ps, toks = pre ++ bad :: post ∧ All2 (GoodFeature pf nF) pre ps ∧ NotFeature pf nF bad ∧
      (featuresLoop pf nF done toks).2 = some .malformedFeatures) ∨
    (∃ pre a b post ps v, toks = pre ++ (a ++ 58 :: b) :: post ∧ All2 (GoodFeature pf nF) pre ps ∧ 58 ∉ b ∧
      WritesInt a v ∧ (v < 0 ∨ nF ≤ v) ∧ (featuresLoop pf nF done toks).2 = some .featureIndexOutOfBounds) := by
  induction toks with
  | nil => intro done _; exact Or.inl ⟨[], All2.nil, by simp [featuresLoop]⟩
  | cons t toks ih =>
    intro done hsp
    by_cases hbad : NotFeature pf nF t
    · exact Or.inr (Or.inl ⟨[], t, toks, [], rfl, All2.nil, hbad, featuresLoop_bad pf nF t toks done hbad⟩)
    · by_cases hoob : ∃ a b v, t = a ++ 58 :: b ∧ 58 ∉ b ∧ WritesInt a v ∧ (v < 0 ∨ nF ≤ v)
      · obtain ⟨a, b, v, rfl, hb, ha, hv⟩ := hoob
        exact Or.inr (Or.inr ⟨[], a, b, toks, [], v, rfl, All2.nil, hb, ha, hv, featuresLoop_oob pf nF a b v toks done ha hb hv⟩)
      · have hgood : ∃ p, WritesFeature pf t p := by
          apply Classical.byContradiction
          intro hn
          exact hbad ⟨hn, hoob⟩
        obtain ⟨p, a, b, rfl, hb, ha, hp⟩ := hgood
        have hrange : ¬ (p.Index < 0 ∨ nF ≤ p.Index) := fun hr => hoob ⟨a, b, p.Index, rfl, hb, ha, hr⟩
        have hg : GoodFeature pf nF (a ++ 58 :: b) p := ⟨hsp _ (by simp), ⟨a, b, rfl, hb, ha, hp⟩, by omega, by omega⟩
        have hstep := featuresLoop_ok pf nF (All2.cons hg All2.nil) done toks
        rw [List.cons_append, List.nil_append] at hstep
        rw [hstep]
        rcases ih (done ++ [p]) (fun t ht => hsp t (by simp [ht])) with
            ⟨ps, h1, h2⟩ | ⟨pre, bad, post, ps, h1, h2, h3, h4⟩ | ⟨pre, a', b', post, ps, w, h1, h2, h3, h4, h5, h6⟩
        · exact Or.inl ⟨p :: ps, All2.cons hg h1, by rw [h2, List.append_assoc]; rfl⟩
        · exact Or.inr (Or.inl ⟨_ :: pre, bad, post, p :: ps, by rw [h1]; rfl, All2.cons hg h2, h3, h4⟩)
        · exact Or.inr (Or.inr ⟨_ :: pre, a', b', post, p :: ps, w, by rw [h1]; rfl, All2.cons hg h2, h3, h4, h5, h6⟩)

/-! ### Lines -/

/-- The result of parsing one line. -/
def lineResult (pf : Bytes → Option F) (nF nL : Int) (line : Bytes) : Except Err (Example F) :=
  match split 32 line with
  | [] => .error .notEnoughFields
  | v :: vs =>
    match labelPart nL v with
    | (_, some e) => .error e
    | (ls, none) =>
      if vs.length = 0 then .error .missingFeatures
      else match featuresLoop pf nF [] vs with
        | (_, some e) => .error e
        | (fs, none) => .ok { Features := fs, Labels := ls }

theorem lineResult_label_error (pf : Bytes → Option F) (nF nL : Int) (str tail : Bytes) (e : Err)
    (h32 : 32 ∉ str) (htail : tail = [] ∨ ∃ rest, tail = 32 :: rest)
    (h : (labelPart nL str).2 = some e) : lineResult pf nF nL (str ++ tail) = .error e := by
  have : ∃ vs, split 32 (str ++ tail) = str :: vs := by
    rcases htail with rfl | ⟨rest, rfl⟩
    · rw [List.append_nil]; exact ⟨[], split_single 32 str h32⟩
    · exact ⟨_, split_append 32 str rest h32⟩
  obtain ⟨vs, hvs⟩ := this
  unfold lineResult
  rw [hvs]
  dsimp only
  generalize hl : labelPart nL str = lp at h
  obtain ⟨ls, err⟩ := lp
  dsimp only at h
  subst h
  rfl

theorem lineResult_features (pf : Bytes → Option F) (nF nL : Int) (str rest : Bytes) (ls : List Int)
    (h32 : 32 ∉ str) (hl : WritesLabels nL str ls) :
    lineResult pf nF nL (str ++ 32 :: rest) =
      match featuresLoop pf nF [] (split 32 rest) with
        | (_, some e) => .error e
        | (fs, none) => .ok { Features := fs, Labels := ls } := by
  unfold lineResult
  rw [split_append 32 str rest h32]
  dsimp only
  rw [labelPart_ok nL str ls hl]
  dsimp only
  rw [if_neg (by intro he; exact split_ne_nil 32 rest (List.length_eq_zero_iff.mp he))]

theorem lineResult_of_outcome (pf : Bytes → Option F) (nF nL : Int) (line : Bytes) (o : Except Err (Example F))
    (h : LineOutcome pf nF nL line o) : lineResult pf nF nL line = o := by
  cases h with
  | ok str toks e h32 hl hne hf =>
    have hsp : ∀ t ∈ toks, 32 ∉ t := fun t ht => (all2_left hf t ht).elim (fun _ h => h.1)
    rw [lineResult_features pf nF nL str _ e.Labels h32 hl, split_join 32 toks hne hsp]
    have := featuresLoop_ok pf nF hf [] []
    rw [List.append_nil] at this
    rw [this, List.nil_append]; rfl
  | badLabel pre post bad ls str tail hs hne h32 hb hpre hv htail =>
    apply lineResult_label_error pf nF nL str tail _ h32 htail
    rw [hs] at hne ⊢
    exact labelPart_bad nL pre post bad ls hne hb hpre hv
  | labelOutOfBounds pre post bad v ls str tail hs h32 hpre hw hv htail =>
    apply lineResult_label_error pf nF nL str tail _ h32 htail
    rw [hs]
    exact labelPart_oob nL pre post bad v ls hpre hw hv
  | missingFeatures _ ls h32 hl =>
    unfold lineResult
    rw [split_single 32 _ h32]
    dsimp only
    rw [labelPart_ok nL _ ls hl]
    rfl
  | badFeature str ls pre post bad ps h32 hl hpre hb32 hbad =>
    rw [lineResult_features pf nF nL str _ ls h32 hl]
    have hsp : ∀ t ∈ pre, 32 ∉ t := fun t ht => (all2_left hpre t ht).elim (fun _ h => h.1)
    obtain ⟨post', hp⟩ := split_join_append 32 pre post bad hsp hb32
    rw [hp, featuresLoop_ok pf nF hpre]
    have := featuresLoop_bad pf nF bad post' ([] ++ ps) hbad
    generalize featuresLoop pf nF ([] ++ ps) (bad :: post') = r at this
    obtain ⟨fs, err⟩ := r
    dsimp only at this
    subst this
    rfl
  | featureIndexOutOfBounds str ls pre post a b v ps h32 hl hpre hb32 hb ha hv =>
    rw [lineResult_features pf nF nL str _ ls h32 hl]
    have hsp : ∀ t ∈ pre, 32 ∉ t := fun t ht => (all2_left hpre t ht).elim (fun _ h => h.1)
    have h32' : 32 ∉ a ++ 58 :: b := by
      rw [List.mem_append, List.mem_cons, not_or, not_or]
      exact ⟨ha.not_mem 32 (by decide), by decide, hb32⟩
    obtain ⟨post', hp⟩ := split_join_append 32 pre post _ hsp h32'
    rw [hp, featuresLoop_ok pf nF hpre]
    have := featuresLoop_oob pf nF a b v post' ([] ++ ps) ha hb hv
    generalize featuresLoop pf nF ([] ++ ps) ((a ++ 58 :: b) :: post') = r at this
    obtain ⟨fs, err⟩ := r
    dsimp only at this
    subst this
    rfl

theorem joinWith_cons (sep : UInt8) (t : Bytes) (ts : List Bytes) (h : ts ≠ []) :
    joinWith sep (t :: ts) = t ++ sep :: joinWith sep ts := by
  cases ts with
  | nil => exact absurd rfl h
  | cons u us => rfl

theorem outcome_total (pf : Bytes → Option F) (nF nL : Int) (line : Bytes) :
    ∃ o, LineOutcome pf nF nL line o := by
  obtain ⟨v, vs, hs⟩ := List.exists_cons_of_ne_nil (split_ne_nil 32 line)
  have hj := join_split 32 line
  rw [hs] at hj
  have hfree := split_free 32 line
  rw [hs] at hfree
  have h32 : 32 ∉ v := hfree v (by simp)
  have hform : ∃ tail, (tail = [] ∨ ∃ rest, tail = 32 :: rest) ∧ line = v ++ tail := by
    cases vs with
    | nil => exact ⟨[], Or.inl rfl, by rw [← hj]; simp [joinWith]⟩
    | cons u us => exact ⟨_, Or.inr ⟨_, rfl⟩, by rw [← hj]; rfl⟩
  obtain ⟨tail, htail, hline⟩ := hform
  rcases labelPart_cases nL v with ⟨ls, hl, -⟩ | ⟨pre, post, bad, ls, h1, h2, h3, h4, h5, -⟩ |
      ⟨pre, post, bad, w, ls, h1, h2, h3, h4, -⟩
  · cases hvs : vs with
    | nil =>
      subst hvs
      have : line = v := by rw [← hj]; rfl
      rw [this]
      exact ⟨_, LineOutcome.missingFeatures v ls h32 hl⟩
    | cons u us =>
      have hne : vs ≠ [] := by rw [hvs]; simp
      rw [joinWith_cons 32 v vs hne] at hj
      have hsp : ∀ t ∈ vs, 32 ∉ t := fun t ht => hfree t (by simp [ht])
      rw [← hj]
      rcases featuresLoop_cases pf nF vs [] hsp with
            ⟨ps, h1, -⟩ | ⟨pre, bad, post, ps, h1, h2, h3, -⟩ | ⟨pre, a, b, post, ps, w, h1, h2, h3, h4, h5, -⟩
      · exact ⟨_, LineOutcome.ok v vs { Features := ps, Labels := ls } h32 hl hne h1⟩
      · rw [h1] at hsp ⊢
        exact ⟨_, LineOutcome.badFeature v ls pre post bad ps h32 hl h2 (hsp bad (by simp)) h3⟩
      · rw [h1] at hsp ⊢
        have := hsp (a ++ 58 :: b) (by simp)
        simp only [List.mem_append, List.mem_cons, not_or] at this
        exact ⟨_, LineOutcome.featureIndexOutOfBounds v ls pre post a b w ps h32 hl h2 this.2.2 h3 h4 h5⟩
  · rw [hline]
    exact ⟨_, LineOutcome.badLabel pre post bad ls v tail h1 h2 h32 h3 h4 h5 htail⟩
  · rw [hline]
    exact ⟨_, LineOutcome.labelOutOfBounds pre post bad w ls v tail h1 h32 h2 h3 h4 htail⟩

theorem outcome_iff (pf : Bytes → Option F) (nF nL : Int) (line : Bytes) (o : Except Err (Example F)) :
    LineOutcome pf nF nL line o ↔ lineResult pf nF nL line = o := by
  constructor
  · exact lineResult_of_outcome pf nF nL line o
  · rintro rfl
    obtain ⟨o, ho⟩ := outcome_total pf nF nL line
    rw [lineResult_of_outcome pf nF nL line o ho]
    exact ho

/-! ### Scan -/

theorem Err_none_iff (s : Scanner F) : s.Err = none ↔ s.err = none ∧ s.buf.tooLong = false := by
  unfold Scanner.Err
  cases s.err with
  | some e => simp
  | none => cases s.buf.tooLong <;> simp

/-- `Scan` after an error. -/
theorem scan_err (pf : Bytes → Option F) (s : Scanner F) (h : s.Err ≠ none) :
    scan pf s = (false, { s with ex := { Features := [], Labels := [] } }) := by
  unfold scan
  exact if_pos h

/-- `Scan` at the end of the input. -/
theorem scan_eof (pf : Bytes → Option F) (s : Scanner F) (h : s.Err = none) (hr : s.buf.rest = []) :
    scan pf s = (false, { s with buf := { s.buf with text := [] }, ex := { Features := [], Labels := [] } }) := by
  obtain ⟨h1, h2⟩ := (Err_none_iff s).mp h
  unfold scan
  refine (if_neg (fun hn => hn h)).trans ?_
  unfold bufScan
  rw [if_neg (by rw [h2]; decide), if_pos hr]
  rfl

/-- `Scan` on an over-long line. -/
theorem scan_long (pf : Bytes → Option F) (s : Scanner F) (h : s.Err = none) (hr : s.buf.rest ≠ [])
    (hl : maxTokenSize ≤ (takeLine s.buf.rest).length) :
    scan pf s = (false, { s with buf := { s.buf with tooLong := true, text := [] }, ex := { Features := [], Labels := [] } }) := by
  obtain ⟨h1, h2⟩ := (Err_none_iff s).mp h
  unfold scan
  refine (if_neg (fun hn => hn h)).trans ?_
  unfold bufScan
  rw [if_neg (by rw [h2]; decide), if_neg hr, if_pos hl]
  rfl

/-- The scanner after handing the next line to parsing. -/
def advance (s : Scanner F) : Scanner F :=
  { s with buf := { rest := dropLine s.buf.rest, tooLong := s.buf.tooLong, text := dropCR (takeLine s.buf.rest) },
           lineNumber := s.lineNumber + 1 }

theorem parseLabels_eq (s : Scanner F) (v : Bytes) : parseLabels s v =
    match labelPart s.numLabels v with
    | (ls, some e) => (false, { s with ex := { s.ex with Labels := ls }, err := some e })
    | (ls, none) => (true, { s with ex := { s.ex with Labels := ls } }) := by
  unfold parseLabels labelPart
  by_cases hv : v.length = 0
  · rw [if_pos hv, if_pos hv]
  · rw [if_neg hv, if_neg hv]
    generalize labelsLoop s.numLabels [] (split 44 v) = r
    obtain ⟨ls, err⟩ := r
    cases err <;> rfl

/-- `Scan` on a line of acceptable length. -/
theorem scan_line (pf : Bytes → Option F) (s : Scanner F) (h : s.Err = none) (hr : s.buf.rest ≠ [])
    (hl : (takeLine s.buf.rest).length < maxTokenSize) :
    match lineResult pf s.numFeatures s.numLabels (dropCR (takeLine s.buf.rest)) with
    | .ok e => scan pf s = (true, { advance s with ex := e })
    | .error e => ∃ x, scan pf s = (false, { advance s with ex := x, err := some e }) := by
  obtain ⟨h1, h2⟩ := (Err_none_iff s).mp h
  have hb : bufScan s.buf = (true, (advance s).buf) := by
    unfold bufScan
    rw [if_neg (by rw [h2]; decide), if_neg hr, if_neg (by omega)]
    rfl
  have hscan : scan pf s = (match split 32 (dropCR (takeLine s.buf.rest)) with
      | [] => (false, { advance s with ex := { Features := [], Labels := [] }, err := some .notEnoughFields })
      | v :: vs =>
        let (ok, s') := parseLabels { advance s with ex := { Features := [], Labels := [] } } v
        if !ok then (false, s') else parseFeatures pf s' vs) := by
    unfold scan
    refine (if_neg (fun hn => hn h)).trans ?_
    dsimp only
    rw [hb]
    dsimp only
    rw [if_neg (by show ¬ ((!true || s.buf.tooLong) = true); rw [h2]; decide)]
    rfl
  rw [hscan]
  unfold lineResult
  cases hs : split 32 (dropCR (takeLine s.buf.rest)) with
  | nil => exact ⟨_, rfl⟩
  | cons v vs =>
    dsimp only
    rw [parseLabels_eq]
    show match (match labelPart s.numLabels v with
      | (_, some e) => Except.error e
      | (ls, none) => _ : Except Err (Example F)) with | .ok e => _ | .error e => _
    have hn : (advance s).numLabels = s.numLabels := rfl
    dsimp only
    rw [hn]
    generalize labelPart s.numLabels v = r
    obtain ⟨ls, err⟩ := r
    cases err with
    | some e => exact ⟨_, rfl⟩
    | none =>
      dsimp only
      rw [if_neg (show ¬ ((!true) = true) by decide)]
      unfold parseFeatures
      by_cases hvs : vs.length = 0
      · rw [if_pos hvs, if_pos hvs]
        exact ⟨_, rfl⟩
      · rw [if_neg hvs, if_neg hvs]
        dsimp only
        have hn : (advance s).numFeatures = s.numFeatures := rfl
        rw [hn]
        generalize featuresLoop pf s.numFeatures [] vs = r
        obtain ⟨fs, err⟩ := r
        cases err with
        | none => rfl
        | some e => exact ⟨_, rfl⟩

/-! ### First lines -/

theorem firstLine_spec {content : Bytes} {n : Nat} {line rest : Bytes} (h : FirstLine content n line rest) :
    content ≠ [] ∧ (takeLine content).length = n ∧ dropCR (takeLine content) = line ∧ dropLine content = rest := by
  cases h with
  | lf _ _ h1 h2 =>
    refine ⟨by simp, by rw [takeLine_append _ _ h1], ?_, dropLine_append _ _ h1⟩
    rw [takeLine_append _ _ h1]
    unfold dropCR
    rw [if_neg h2]
  | crlf _ _ h1 =>
    have h13 : 10 ∉ line ++ [13] := by
      rw [List.mem_append, not_or]; exact ⟨h1, by decide⟩
    have e : line ++ 13 :: 10 :: rest = (line ++ [13]) ++ 10 :: rest := by simp
    rw [e]
    refine ⟨by simp, ?_, ?_, dropLine_append _ _ h13⟩
    · rw [takeLine_append _ _ h13]; simp
    · rw [takeLine_append _ _ h13, dropCR_cr]
  | last _ h0 h1 h2 =>
    refine ⟨h0, by rw [takeLine_all _ h1], ?_, dropLine_all _ h1⟩
    rw [takeLine_all _ h1]
    unfold dropCR
    rw [if_neg h2]
  | lastCr _ h1 =>
    have h13 : 10 ∉ line ++ [13] := by
      rw [List.mem_append, not_or]; exact ⟨h1, by decide⟩
    refine ⟨by simp, ?_, ?_, dropLine_all _ h13⟩
    · rw [takeLine_all _ h13]; simp
    · rw [takeLine_all _ h13, dropCR_cr]

theorem line_split (l : Bytes) : (10 ∉ l ∧ takeLine l = l ∧ dropLine l = []) ∨
    l = takeLine l ++ 10 :: dropLine l := by
  induction l with
  | nil => exact Or.inl ⟨by simp, rfl, rfl⟩
  | cons c cs ih =>
    by_cases h : c = 10
    · subst h; exact Or.inr (by simp [takeLine, dropLine])
    · have h1 : takeLine (c :: cs) = c :: takeLine cs := by
        unfold takeLine; rw [List.takeWhile_cons, if_pos (by simpa using h)]
      have h2 : dropLine (c :: cs) = dropLine cs := by
        unfold dropLine; rw [List.dropWhile_cons, if_pos (by simpa using h)]
      rw [h1, h2]
      rcases ih with ⟨h3, h4, h5⟩ | h3
      · refine Or.inl ⟨?_, by rw [h4], h5⟩
        rw [List.mem_cons, not_or]; exact ⟨fun e => h e.symm, h3⟩
      · refine Or.inr ?_
        rw [List.cons_append]; exact congrArg _ h3

theorem dropCR_cases (l : Bytes) : (dropCR l = l ∧ l.getLast? ≠ some 13) ∨ l = dropCR l ++ [13] := by
  unfold dropCR
  by_cases h : l.getLast? = some 13
  · rw [if_pos h]
    refine Or.inr ?_
    obtain ⟨ys, hys⟩ := List.getLast?_eq_some_iff.mp h
    rw [hys]; simp
  · rw [if_neg h]; exact Or.inl ⟨rfl, h⟩

/-- Every non-empty input has a first line. -/
theorem firstLine_total (content : Bytes) (h : content ≠ []) :
    FirstLine content (takeLine content).length (dropCR (takeLine content)) (dropLine content) := by
  rcases line_split content with ⟨h1, h2, h3⟩ | h1
  · rw [h2, h3]
    rcases dropCR_cases content with ⟨h4, h5⟩ | h4
    · rw [h4]; exact FirstLine.last content h h1 h5
    · have h6 : 10 ∉ dropCR content := by
        intro hm; apply h1; rw [h4]; simp [hm]
      have hlen : content.length = (dropCR content).length + 1 := by
        conv => lhs; rw [h4]
        simp
      rw [hlen]
      conv => arg 1; rw [h4]
      exact FirstLine.lastCr _ h6
  · have hf := takeLine_free content
    rcases dropCR_cases (takeLine content) with ⟨h4, h5⟩ | h4
    · rw [h4]
      conv => arg 1; rw [h1]
      exact FirstLine.lf _ _ hf h5
    · have h6 : 10 ∉ dropCR (takeLine content) := by
        intro hm; apply hf; rw [h4]; simp [hm]
      have hlen : (takeLine content).length = (dropCR (takeLine content)).length + 1 := by
        conv => lhs; rw [h4]
        simp
      rw [hlen]
      have e : content = dropCR (takeLine content) ++ 13 :: 10 :: dropLine content := by
        conv => lhs; rw [h1, h4]
        simp
      conv => arg 1; rw [e]
      exact FirstLine.crlf _ _ h6

/-! ### Header -/

theorem headerInts_cons (v : Bytes) (vs : List Bytes) (is : List Int) :
    headerInts (v :: vs) = some is ↔ ∃ i js, is = i :: js ∧ WritesInt v i ∧ 0 < i ∧ headerInts vs = some js := by
  rw [headerInts]
  constructor
  · intro h
    cases hv : atoi v with
    | none => rw [hv] at h; simp at h
    | some n =>
      rw [hv] at h
      dsimp only at h
      by_cases hn : n ≤ 0
      · rw [if_pos hn] at h; simp at h
      · rw [if_neg hn, Option.map_eq_some_iff] at h
        obtain ⟨js, h1, h2⟩ := h
        exact ⟨n, js, h2.symm, (atoi_iff v n).mp hv, by omega, h1⟩
  · rintro ⟨i, js, rfl, h1, h2, h3⟩
    rw [(atoi_iff v i).mpr h1]
    dsimp only
    rw [if_neg (by omega), h3]; rfl

theorem writesHeader_iff (line : Bytes) (a b c : Int) : WritesHeader line a b c ↔
    (split 32 line).length = 3 ∧ headerInts (split 32 line) = some [a, b, c] := by
  constructor
  · rintro ⟨ha, hb, hc, x, y, z, rfl, hx, hy, hz⟩
    have : split 32 (joinWith 32 [x, y, z]) = [x, y, z] := by
      apply split_join 32 _ (by simp)
      intro t ht
      simp only [List.mem_cons, List.not_mem_nil, or_false] at ht
      rcases ht with rfl | rfl | rfl
      · exact hx.not_mem 32 (by decide)
      · exact hy.not_mem 32 (by decide)
      · exact hz.not_mem 32 (by decide)
    rw [this]
    refine ⟨rfl, (headerInts_cons _ _ _).mpr ⟨a, _, rfl, hx, ha, (headerInts_cons _ _ _).mpr ⟨b, _, rfl, hy, hb,
      (headerInts_cons _ _ _).mpr ⟨c, _, rfl, hz, hc, rfl⟩⟩⟩⟩
  · rintro ⟨h1, h2⟩
    have hj := join_split 32 line
    generalize split 32 line = toks at h1 h2 hj
    match toks, h1 with
    | [x, y, z], _ =>
      obtain ⟨i, js, e, hx, hx0, h3⟩ := (headerInts_cons _ _ _).mp h2
      obtain ⟨j, ks, rfl, hy, hy0, h4⟩ := (headerInts_cons _ _ _).mp h3
      obtain ⟨k, ls, rfl, hz, hz0, h5⟩ := (headerInts_cons _ _ _).mp h4
      simp only [List.cons.injEq] at e
      obtain ⟨rfl, rfl, rfl, -⟩ := e
      exact ⟨hx0, hy0, hz0, x, y, z, hj.symm, hx, hy, hz⟩

/-- The initial scanner of `NewScanner`, before the header is read. -/
def start (content : Bytes) : Scanner F :=
  { buf := { rest := content, tooLong := false, text := [] }, err := none, lineNumber := 0,
    totalPoints := 0, numFeatures := 0, numLabels := 0, ex := { Features := [], Labels := [] } }

/-- The header step on a text line. -/
def headerOn (s : Scanner F) (line : Bytes) : Scanner F :=
  if (split 32 line).length ≠ 3 then { s with err := some .malformedHeader }
    else match headerInts (split 32 line) with
      | some [a, b, c] => { s with totalPoints := a, numFeatures := b, numLabels := c }
      | _ => { s with err := some .malformedHeader }

theorem newScanner_empty : (newScanner [] : Scanner F) =
    { (start [] : Scanner F) with lineNumber := 1, err := some .malformedHeader } := rfl

theorem newScanner_long (content : Bytes) (h : content ≠ []) (hl : maxTokenSize ≤ (takeLine content).length) :
    (newScanner content : Scanner F) = { (start content : Scanner F) with buf := { rest := content, tooLong := true, text := [] } } := by
  have hb : bufScan { rest := content, tooLong := false, text := [] } =
      (false, { rest := content, tooLong := true, text := [] }) := by
    unfold bufScan
    rw [if_neg (by simp), if_neg h, if_pos hl]
  unfold newScanner scanHeader
  dsimp only
  rw [hb]
  rfl

theorem newScanner_line (content : Bytes) (h : content ≠ []) (hl : (takeLine content).length < maxTokenSize) :
    (newScanner content : Scanner F) = headerOn (advance (start content)) (dropCR (takeLine content)) := by
  have hb : bufScan { rest := content, tooLong := false, text := [] } =
      (true, { rest := dropLine content, tooLong := false, text := dropCR (takeLine content) }) := by
    unfold bufScan
    rw [if_neg (by simp), if_neg h, if_neg (by show ¬ (maxTokenSize ≤ (takeLine content).length); omega)]
  unfold newScanner scanHeader
  dsimp only
  rw [hb]
  rfl

theorem headerOn_good (s : Scanner F) (line : Bytes) (a b c : Int) (h : WritesHeader line a b c) :
    headerOn s line = { s with totalPoints := a, numFeatures := b, numLabels := c } := by
  obtain ⟨h1, h2⟩ := (writesHeader_iff line a b c).mp h
  unfold headerOn
  rw [if_neg (by omega), h2]

theorem headerOn_bad (s : Scanner F) (line : Bytes) (h : ¬ ∃ a b c, WritesHeader line a b c) :
    headerOn s line = { s with err := some .malformedHeader } := by
  unfold headerOn
  by_cases h3 : (split 32 line).length = 3
  · rw [if_neg (by omega)]
    split
    · rename_i a b c heq
      exact absurd ⟨a, b, c, (writesHeader_iff line a b c).mpr ⟨h3, heq⟩⟩ h
    · rfl
  · rw [if_pos h3]

/-! ### Any number of calls -/

theorem scan_cases (pf : Bytes → Option F) (s : Scanner F) :
    (s.Err ≠ none ∧ scan pf s = (false, { s with ex := { Features := [], Labels := [] } })) ∨
    (s.Err = none ∧ s.buf.rest = [] ∧
      scan pf s = (false, { s with buf := { s.buf with text := [] }, ex := { Features := [], Labels := [] } })) ∨
    (s.Err = none ∧ s.buf.rest ≠ [] ∧ maxTokenSize ≤ (takeLine s.buf.rest).length ∧
      scan pf s = (false, { s with buf := { s.buf with tooLong := true, text := [] }, ex := { Features := [], Labels := [] } })) ∨
    (s.Err = none ∧ s.buf.rest ≠ [] ∧ (takeLine s.buf.rest).length < maxTokenSize ∧
      ∃ e, lineResult pf s.numFeatures s.numLabels (dropCR (takeLine s.buf.rest)) = .ok e ∧
        scan pf s = (true, { advance s with ex := e })) ∨
    (s.Err = none ∧ s.buf.rest ≠ [] ∧ (takeLine s.buf.rest).length < maxTokenSize ∧
      ∃ e x, lineResult pf s.numFeatures s.numLabels (dropCR (takeLine s.buf.rest)) = .error e ∧
        scan pf s = (false, { advance s with ex := x, err := some e })) := by
  by_cases h : s.Err = none
  · by_cases hr : s.buf.rest = []
    · exact Or.inr (Or.inl ⟨h, hr, scan_eof pf s h hr⟩)
    · by_cases hl : maxTokenSize ≤ (takeLine s.buf.rest).length
      · exact Or.inr (Or.inr (Or.inl ⟨h, hr, hl, scan_long pf s h hr hl⟩))
      · have hl' : (takeLine s.buf.rest).length < maxTokenSize := by omega
        have := scan_line pf s h hr hl'
        cases hres : lineResult pf s.numFeatures s.numLabels (dropCR (takeLine s.buf.rest)) with
        | ok e =>
          rw [hres] at this
          exact Or.inr (Or.inr (Or.inr (Or.inl ⟨h, hr, hl', e, rfl, this⟩)))
        | error e =>
          rw [hres] at this
          obtain ⟨x, hx⟩ := this
          exact Or.inr (Or.inr (Or.inr (Or.inr ⟨h, hr, hl', e, x, rfl, hx⟩)))
  · exact Or.inl ⟨h, scan_err pf s h⟩

/-- An invariant of `Scan` holds after any number of calls. -/
theorem scanN_inv (pf : Bytes → Option F) (P : Scanner F → Prop) (hstep : ∀ s, P s → P (scan pf s).2) :
    ∀ (n : Nat) (s : Scanner F), P s → P (scanN pf n s) := by
  intro n
  induction n with
  | zero => intro s h; exact h
  | succ n ih => intro s h; exact ih _ (hstep s h)

theorem scan_counts (pf : Bytes → Option F) (s : Scanner F) :
    (scan pf s).2.totalPoints = s.totalPoints ∧ (scan pf s).2.numFeatures = s.numFeatures ∧
    (scan pf s).2.numLabels = s.numLabels := by
  rcases scan_cases pf s with ⟨-, h⟩ | ⟨-, -, h⟩ | ⟨-, -, -, h⟩ | ⟨-, -, -, e, -, h⟩ | ⟨-, -, -, e, x, -, h⟩ <;>
    rw [h] <;> exact ⟨rfl, rfl, rfl⟩

end Goslide.Xcrepo
