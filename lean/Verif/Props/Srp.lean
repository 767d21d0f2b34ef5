import Verif.Proofs.Srp
import Verif.Go.Exact
/-
Properties C27–C30 (sparse_random_projection).
-/
namespace Goslide.Props
open Spec
variable {F : Type} [GoFloat F]

/-- C27. `New` succeeds and gives each hash a strictly increasing list of `ceil(dim/ratio)` feature
indices in `[0,dim)`, for every random outcome. The float64 division is covered by `FloatIntDiv`. -/
theorem C27_samples (F : Type) [GoFloat F] [FloatIntDiv F] (dim numHashes ratio : Nat) (r : Rng)
    (hr : 0 < ratio) (hd : dim ≤ 2 ^ 53) (hr2 : ratio ≤ 2 ^ 53) :
    ∃ srp r', Srp.new F dim numHashes ratio r = .ok (srp, r') ∧ srp.dim = dim ∧
      srp.numHashes = numHashes ∧ srp.rows.length = numHashes ∧
      srp.samSize = (dim + ratio - 1) / ratio ∧
      ∀ row ∈ srp.rows, row.length = (dim + ratio - 1) / ratio ∧
        row.Pairwise (fun a b => a.1 < b.1) ∧ ∀ x ∈ row, x.1 < dim := by
  have hceil : GoFloat.ceilInt (GoFloat.div (GoFloat.ofInt (dim : Int) : F) (GoFloat.ofInt (ratio : Int))) =
      (((dim + ratio - 1) / ratio : Nat) : Int) := by
    rw [FloatIntDiv.ceil_div (F := F) _ _ (by omega) (by exact_mod_cast hd) (by omega) (by exact_mod_cast hr2)]
    generalize hq : (dim + ratio - 1) / ratio = q
    have h1 : q * ratio ≤ dim + ratio - 1 := by rw [← hq]; exact Nat.div_mul_le_self _ _
    have h2 : dim + ratio - 1 < (q + 1) * ratio := by
      rw [← hq, Nat.mul_comm]; exact Nat.lt_mul_div_succ _ hr
    rw [Nat.succ_mul] at h2
    have h3 : -(dim : Int) / (ratio : Int) = -(q : Int) := by
      have hr' : (0 : Int) < ratio := by omega
      apply Int.le_antisymm
      · have : -(dim : Int) / (ratio : Int) < -(q : Int) + 1 := by
          apply Int.ediv_lt_of_lt_mul hr'
          have e : (-(q : Int) + 1) * ratio = -((q * ratio : Nat) : Int) + ratio := by
            rw [Int.add_mul, Int.neg_mul, Int.one_mul]; simp
          rw [e]; omega
        omega
      · apply Int.le_ediv_of_mul_le hr'
        have e : -(q : Int) * ratio = -((q * ratio : Nat) : Int) := by rw [Int.neg_mul]; simp
        rw [e]; omega
    rw [h3]; omega
  have hle : (dim + ratio - 1) / ratio ≤ dim := by
    rcases Nat.eq_zero_or_pos dim with h0 | h0
    · subst h0
      rw [Nat.div_eq_of_lt (by omega)]; exact Nat.le_refl _
    · apply Nat.div_le_of_le_mul
      have : dim + ratio ≤ ratio * dim + 1 := by
        obtain ⟨a, rfl⟩ : ∃ a, dim = a + 1 := ⟨dim - 1, by omega⟩
        obtain ⟨b, rfl⟩ : ∃ b, ratio = b + 1 := ⟨ratio - 1, by omega⟩
        have : (b + 1) * (a + 1) = b * a + b + a + 1 := by
          rw [Nat.mul_add, Nat.add_mul]; omega
        omega
      omega
  obtain ⟨rows, r', h1, h2, h3⟩ := Srp.rowsLoop_ok dim ((dim + ratio - 1) / ratio) hle numHashes
    (List.range dim) r (List.Perm.refl _)
  refine ⟨{ dim := dim, numHashes := numHashes, samSize := (dim + ratio - 1) / ratio, rows := rows }, r', ?_,
    rfl, rfl, h2, rfl, h3⟩
  unfold Srp.new
  dsimp only
  rw [hceil, if_neg (by intro h; exact absurd h.1 (Int.not_lt.mpr (Int.natCast_nonneg _))), Int.toNat_natCast, h1]
  rfl

/-- C27. If the computed sample size is negative (a ratio of 0, see `C77_srp_ratio_zero`), `New` panics exactly if there is a hash to build. -/
theorem C27_negative (F : Type) [GoFloat F] (dim numHashes ratio : Nat) (r : Rng)
    (h : GoFloat.ceilInt (GoFloat.div (GoFloat.ofInt (dim : Int) : F) (GoFloat.ofInt (ratio : Int))) < 0) :
    (numHashes ≠ 0 → Srp.new F dim numHashes ratio r = .error .makeLen) ∧
    (numHashes = 0 → ∃ srp, Srp.new F dim numHashes ratio r = .ok (srp, r) ∧ srp.rows = []) := by
  constructor
  · intro h0
    unfold Srp.new
    dsimp only
    rw [if_pos ⟨h, Nat.pos_of_ne_zero h0⟩]
  · rintro rfl
    unfold Srp.new
    dsimp only
    rw [if_neg (by simp)]
    exact ⟨_, rfl, rfl⟩

example : (Srp.new Rat 7 2 3 (fun n => 11 * n + 5)).map (fun x => x.1.rows) =
    .ok [[(0, false), (1, true), (3, false)], [(1, true), (3, false), (6, true)]] := by decide +kernel

/-- C28. For any projection with strictly increasing rows (as built by `New`), `GetHashSparse` on
pairs with strictly increasing indices equals `GetHash` on the dense vector they denote. -/
theorem C28_sparse_eq_dense [FloatZero F] (srp : Srp.SparseRandomProjection) (pairs : List (Pair F))
    (data : List F) (hrows : ∀ row ∈ srp.rows, row.Pairwise (fun a b => a.1 < b.1) ∧ ∀ x ∈ row, x.1 < data.length)
    (hinc : Increasing pairs) (hden : Denotes pairs data) :
    Srp.getHash srp data = .ok (Srp.getHashSparse srp pairs) := by
  rw [Srp.getHashSparse_eq]
  unfold Srp.getHash
  apply mapM_ok_of_forall
  intro row hrow
  obtain ⟨h1, h2⟩ := hrows row hrow
  rw [Srp.denseSum_ok row data h2, ok_bind, Srp.merge_lookup pairs row GoFloat.zero hinc h1]
  show Except.ok _ = _
  have gen : ∀ (row : List (Nat × Bool)) (s : F), FloatZero.NotNegZero s → (∀ x ∈ row, x.1 < data.length) →
      row.foldl (fun s x => Srp.signed s (data.getD x.1 GoFloat.zero) x.2) s =
      row.foldl (fun s x =>
        match pairs.find? (fun p => decide (p.Index = (x.1 : Int))) with
        | some p => Srp.signed s p.Value x.2
        | none => s) s := by
    intro row
    induction row with
    | nil => intro s _ _; rfl
    | cons x row ih =>
      intro s hs hx
      have hlt := hx x (by simp)
      have hd := hden.2.2 x.1 hlt
      have hget : data[x.1]? = some data[x.1] := List.getElem?_eq_getElem hlt
      have hgD : data.getD x.1 GoFloat.zero = data[x.1] := by simp [List.getD, hget]
      have hsv : ∀ v, FloatZero.NotNegZero (Srp.signed s v x.2) := by
        intro v
        unfold Srp.signed
        split
        · exact FloatZero.add_ok _ _ hs
        · exact FloatZero.sub_ok _ _ hs
      rw [List.foldl_cons, List.foldl_cons, hgD]
      cases hf : pairs.find? (fun p => decide (p.Index = (x.1 : Int))) with
      | some p =>
        have hp := List.mem_of_find?_eq_some hf
        have hpi := List.find?_some hf
        simp only [decide_eq_true_eq] at hpi
        have := hd.1 p hp hpi
        rw [hget] at this
        simp only [Option.some.injEq] at this
        rw [this]
        exact ih _ (hsv _) (fun y hy => hx y (by simp [hy]))
      | none =>
        have hz := hd.2 (by
          intro p hp he
          have := List.find?_eq_none.mp hf p hp
          simp only [decide_eq_true_eq] at this
          exact this he)
        rw [hget] at hz
        simp only [Option.some.injEq] at hz
        have : Srp.signed s GoFloat.zero x.2 = s := by
          unfold Srp.signed
          split
          · exact FloatZero.add_zero s hs
          · exact FloatZero.sub_zero s hs
        rw [hz, this]
        exact ih _ hs (fun y hy => hx y (by simp [hy]))
  exact congrArg (fun s => Except.ok (Srp.signBit s)) (gen row _ FloatZero.zero_ok h2)

/-- C28, for the projections built by `New`. -/
theorem C28_new_sparse_eq_dense [FloatIntDiv F] [FloatZero F] (dim numHashes ratio : Nat) (r : Rng)
    (hr : 0 < ratio) (hd : dim ≤ 2 ^ 53) (hr2 : ratio ≤ 2 ^ 53) (pairs : List (Pair F)) (data : List F)
    (hlen : data.length = dim) (hinc : Increasing pairs) (hden : Denotes pairs data) :
    ∃ srp r', Srp.new F dim numHashes ratio r = .ok (srp, r') ∧
      (Srp.getHashSparse srp pairs).length = numHashes ∧
      Srp.getHash srp data = .ok (Srp.getHashSparse srp pairs) := by
  obtain ⟨srp, r', h1, -, -, h2, -, h3⟩ := C27_samples F dim numHashes ratio r hr hd hr2
  refine ⟨srp, r', h1, by rw [Srp.getHashSparse_eq]; simp [h2], ?_⟩
  apply C28_sparse_eq_dense srp pairs data _ hinc hden
  intro row hrow
  obtain ⟨-, h4, h5⟩ := h3 row hrow
  exact ⟨h4, by rw [hlen]; exact h5⟩

-- a projection of a 5-dimensional vector with two non-zero coordinates
example : Increasing [(⟨1, 3⟩ : Pair Rat), ⟨4, -7⟩] ∧ Denotes [(⟨1, 3⟩ : Pair Rat), ⟨4, -7⟩] [0, 3, 0, 0, -7] := by
  refine ⟨by simp [Increasing], by simp, by simp, ?_⟩
  intro i hi
  have : i = 0 ∨ i = 1 ∨ i = 2 ∨ i = 3 ∨ i = 4 := by simp at hi; omega
  rcases this with rfl | rfl | rfl | rfl | rfl <;> exact ⟨by simp, by simp; try rfl⟩
example : Srp.getHashSparse ⟨5, 2, 2, [[(1, true), (4, true)], [(1, true), (2, false)]]⟩
    [(⟨1, 3⟩ : Pair Rat), ⟨4, -7⟩] = [1, 0] := by decide +kernel

/-- C29 is false of the code: the merge loop assumes increasing indices, so reordering the pairs can
change the codes. -/
theorem C29_order_matters :
    ¬ ∀ (srp : Srp.SparseRandomProjection) (pairs pairs' : List (Pair Rat)),
      (∀ row ∈ srp.rows, row.Pairwise (fun a b => a.1 < b.1)) → pairs.Perm pairs' →
      (pairs.map (·.Index)).Nodup →
      Srp.getHashSparse srp pairs = Srp.getHashSparse srp pairs' := by
  intro h
  have hw := h ⟨2, 1, 2, [[(0, true), (1, true)]]⟩ [⟨0, -1⟩, ⟨1, 2⟩] [⟨1, 2⟩, ⟨0, -1⟩]
    (by simp) (List.Perm.swap _ _ _) (by simp)
  have hw2 := h ⟨2, 1, 2, [[(0, true), (1, true)]]⟩ [⟨0, -3⟩, ⟨1, 2⟩] [⟨1, 2⟩, ⟨0, -3⟩]
    (by simp) (List.Perm.swap _ _ _) (by simp)
  revert hw2
  decide +kernel

/-- C29 (what the code does). On a pair list in any order `GetHashSparse` uses exactly the pairs whose
index exceeds all the indices before them, which form an increasing list; so two orderings with the
same left-to-right maxima get the same codes. Missing: independence of the order, which is false. -/
theorem C29_records_partial (srp : Srp.SparseRandomProjection) (pairs : List (Pair F))
    (hrows : ∀ row ∈ srp.rows, row.Pairwise (fun a b => a.1 < b.1)) :
    Increasing (records pairs) ∧
    Srp.getHashSparse srp pairs = Srp.getHashSparse srp (records pairs) := by
  refine ⟨(Srp.recordsFrom_spec pairs none).1, ?_⟩
  rw [Srp.getHashSparse_eq, Srp.getHashSparse_eq]
  apply List.map_congr_left
  intro row hrow
  rw [Srp.merge_records pairs row GoFloat.zero none (hrows row hrow) (by simp)]
  rfl

example : records [(⟨3, 1⟩ : Pair Rat), ⟨1, 5⟩, ⟨4, 2⟩, ⟨2, 7⟩] = [⟨3, 1⟩, ⟨4, 2⟩] := by decide +kernel

/-- C30. Every code is 0 or 1, for any data and any projection. -/
theorem C30_codes_are_bits (srp : Srp.SparseRandomProjection) (data : List F) (codes : List Int)
    (h : Srp.getHash srp data = .ok codes) : ∀ c ∈ codes, c = 0 ∨ c = 1 := by
  intro c hc
  obtain ⟨i, hi⟩ := List.mem_iff_getElem?.mp hc
  unfold Srp.getHash at h
  obtain ⟨hl, h2⟩ := (mapM_ok_iff _ _ _).mp h
  have hlt : i < srp.rows.length := by
    rw [← hl]; exact (List.getElem?_eq_some_iff.mp hi).1
  obtain ⟨b, hb, hf⟩ := h2 i srp.rows[i] (List.getElem?_eq_getElem hlt)
  rw [hi] at hb
  simp only [Option.some.injEq] at hb
  subst hb
  rw [bind_ok_iff] at hf
  obtain ⟨s, -, hs⟩ := hf
  simp only [pure, Except.pure, Except.ok.injEq] at hs
  rw [← hs]
  unfold Srp.signBit
  split
  · exact Or.inl rfl
  · exact Or.inr rfl

theorem C30_fold_sum (row : List (Nat × Bool)) (v : Nat → Rat) : ∀ s : Rat,
    row.foldl (fun s x => Srp.signed s (v x.1) x.2) s = s + signedSum row v := by
  induction row with
  | nil => intro s; simp [signedSum, Rat.add_zero]
  | cons x row ih =>
    intro s
    rw [List.foldl_cons, ih]
    unfold Srp.signed signedSum
    simp only [List.map_cons, List.foldr_cons]
    cases x.2 with
    | true =>
      show s + v x.1 + _ = _
      rw [Rat.add_assoc]; rfl
    | false =>
      show s - v x.1 + _ = _
      rw [Rat.sub_eq_add_neg, Rat.add_assoc]; rfl

/-- C30 (exact arithmetic). The code is 0 exactly when the signed sum of the sampled coordinates is
`≥ 0`. -/
theorem C30_sign_of_sum (srp : Srp.SparseRandomProjection) (v : Nat → Rat) (n : Nat)
    (hrows : ∀ row ∈ srp.rows, ∀ x ∈ row, x.1 < n) :
    Srp.getHash srp ((List.range n).map v) =
      .ok (srp.rows.map (fun row => if 0 ≤ signedSum row v then 0 else 1)) := by
  unfold Srp.getHash
  apply mapM_ok_of_forall
  intro row hrow
  rw [Srp.denseSum_ok row _ (by simpa using hrows row hrow), ok_bind]
  show Except.ok _ = _
  have e : row.foldl (fun s x => Srp.signed s (((List.range n).map v).getD x.1 GoFloat.zero) x.2) (GoFloat.zero : Rat) =
      row.foldl (fun s x => Srp.signed s (v x.1) x.2) (GoFloat.zero : Rat) := by
    have gen : ∀ (row : List (Nat × Bool)) (s : Rat), (∀ x ∈ row, x.1 < n) →
        row.foldl (fun s x => Srp.signed s (((List.range n).map v).getD x.1 GoFloat.zero) x.2) s =
        row.foldl (fun s x => Srp.signed s (v x.1) x.2) s := by
      intro row
      induction row with
      | nil => intro s _; rfl
      | cons x row ih =>
        intro s h
        have hx := h x (by simp)
        rw [List.foldl_cons, List.foldl_cons]
        have : ((List.range n).map v).getD x.1 GoFloat.zero = v x.1 := by
          simp [List.getD, List.getElem?_range hx]
        rw [this]
        exact ih _ (fun y hy => h y (by simp [hy]))
    exact gen row _ (hrows row hrow)
  rw [e, C30_fold_sum]
  congr 1
  have hz : (GoFloat.zero : Rat) = 0 := rfl
  rw [hz, Rat.zero_add]
  unfold Srp.signBit
  show (if decide ((0 : Rat) ≤ signedSum row v) = true then (0 : Int) else 1) = _
  by_cases h : 0 ≤ signedSum row v
  · rw [if_pos h, if_pos (by simpa using h)]
  · rw [if_neg h, if_neg (by simpa using h)]

theorem signedSum_scale (row : List (Nat × Bool)) (v : Nat → Rat) (c : Rat) :
    signedSum row (fun i => c * v i) = c * signedSum row v := by
  induction row with
  | nil => simp [signedSum]
  | cons x row ih =>
    unfold signedSum at *
    simp only [List.map_cons, List.foldr_cons]
    rw [ih, Rat.mul_add]
    cases x.2 with
    | true => rfl
    | false => simp only [Bool.false_eq_true, if_false]; rw [Rat.mul_neg]

/-- C30 (exact arithmetic). Scaling by a positive factor keeps every code. -/
theorem C30_positive_scale (srp : Srp.SparseRandomProjection) (v : Nat → Rat) (n : Nat) (c : Rat) (hc : 0 < c)
    (hrows : ∀ row ∈ srp.rows, ∀ x ∈ row, x.1 < n) :
    Srp.getHash srp ((List.range n).map (fun i => c * v i)) = Srp.getHash srp ((List.range n).map v) := by
  rw [C30_sign_of_sum srp (fun i => c * v i) n hrows, C30_sign_of_sum srp v n hrows]
  congr 1
  apply List.map_congr_left
  intro row _
  rw [signedSum_scale]
  have : 0 ≤ c * signedSum row v ↔ 0 ≤ signedSum row v := by
    constructor
    · intro h
      have h1 : c * 0 ≤ c * signedSum row v := by rw [Rat.mul_zero]; exact h
      exact Rat.le_of_mul_le_mul_left h1 hc
    · intro h
      exact Rat.mul_nonneg (Rat.le_of_lt hc) h
  by_cases h : 0 ≤ signedSum row v
  · rw [if_pos h, if_pos (this.mpr h)]
  · rw [if_neg h, if_neg (fun h' => h (this.mp h'))]

/-- C30 (exact arithmetic). Negating the vector flips every code whose signed sum is not 0, and keeps
code 0 where it is 0. -/
theorem C30_negate (srp : Srp.SparseRandomProjection) (v : Nat → Rat) (n : Nat)
    (hrows : ∀ row ∈ srp.rows, ∀ x ∈ row, x.1 < n) :
    ∃ codes codes', Srp.getHash srp ((List.range n).map v) = .ok codes ∧
      Srp.getHash srp ((List.range n).map (fun i => - v i)) = .ok codes' ∧
      ∀ (i : Nat) row, srp.rows[i]? = some row → ∃ c c', codes[i]? = some c ∧ codes'[i]? = some c' ∧
        (signedSum row v ≠ 0 → c' = 1 - c) ∧ (signedSum row v = 0 → c = 0 ∧ c' = 0) := by
  refine ⟨_, _, C30_sign_of_sum srp v n hrows, C30_sign_of_sum srp (fun i => - v i) n hrows, ?_⟩
  intro i row hi
  refine ⟨_, _, by rw [List.getElem?_map, hi]; rfl, by rw [List.getElem?_map, hi]; rfl, ?_⟩
  have hneg : signedSum row (fun i => - v i) = - signedSum row v := by
    have := signedSum_scale row v (-1)
    rw [Rat.neg_mul, Rat.one_mul] at this
    rw [← this]
    congr 1
    funext i
    rw [Rat.neg_mul, Rat.one_mul]
  dsimp only
  rw [hneg]
  have hiff : 0 ≤ - signedSum row v ↔ signedSum row v ≤ 0 := by
    rw [Rat.le_iff_sub_nonneg (signedSum row v) 0, Rat.sub_eq_add_neg, Rat.zero_add]
  constructor
  · intro hne
    by_cases h : 0 ≤ signedSum row v
    · have : ¬ signedSum row v ≤ 0 := fun h' => hne (Rat.le_antisymm h' h)
      rw [if_pos h, if_neg (fun h' => this (hiff.mp h'))]; rfl
    · have : signedSum row v ≤ 0 := by
        rcases Rat.le_total (a := signedSum row v) (b := 0) with h' | h'
        · exact h'
        · exact absurd h' h
      rw [if_neg h, if_pos (hiff.mpr this)]; rfl
  · intro h0
    rw [h0]
    exact ⟨by decide, by decide⟩

example : Srp.getHash ⟨3, 2, 2, [[(0, true), (2, false)], [(1, true), (2, true)]]⟩ [(1 : Rat), -2, 3]
    = .ok [1, 0] := by decide +kernel

end Goslide.Props
