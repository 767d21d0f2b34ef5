import Verif.Proofs.Wta
import Verif.Proofs.LshIndex
import Verif.Go.Exact
import Verif.Spec.Vector
import Verif.Props.Lsh
/-
Properties C12, C14, C15, C16 (wta_hash/wta_hash.go).
-/
namespace Goslide.Props
open Spec
variable {F : Type} [GoFloat F]

/-- C14. Every block of `dim` consecutive entries of the table built by `New` is a permutation of
the feature indices, for every random outcome; there are enough entries for 8 per hash. -/
theorem C14_table_is_permutations (numHashes dim : Nat) (hd : 0 < dim) (r : Rng) (p : Nat)
    (hp : (p + 1) * dim ≤ (Wta.new numHashes dim r).1.indices.length) :
    (((Wta.new numHashes dim r).1.indices.drop (p * dim)).take dim).Perm (List.range dim) ∧
    8 * numHashes ≤ (Wta.new numHashes dim r).1.indices.length := by
  have h1 := Wta.permLoop_length dim (Wta.permuteCount numHashes dim) (List.range dim) r (by simp)
  have h2 := Wta.permuteCount_mul numHashes dim hd
  refine ⟨?_, ?_⟩
  · apply Wta.permLoop_block dim _ _ r (List.Perm.refl _) p
    have : (p + 1) * dim ≤ Wta.permuteCount numHashes dim * dim := by rw [← h1]; exact hp
    exact Nat.le_of_mul_le_mul_right this hd
  · show _ ≤ (Wta.permLoop _ _ _).1.length
    omega

/-- C14. For every vector with one entry per dimension, `GetHashDense` does not panic; code `i` is
the first arg-max among the 8 features of bin `i` provided one of their values exceeds -2^63,
otherwise it is MinInt64. -/
theorem C14_dense_argmax [FloatOrder F] (numHashes dim : Nat) (hd : 0 < dim) (r : Rng)
    (val : Nat → F) :
    ∃ codes, Wta.getHashDense (Wta.new numHashes dim r).1 ((List.range dim).map val) = .ok codes ∧
      codes.length = numHashes ∧
      ∀ i, i < numHashes → ∃ feats, feats = ((Wta.new numHashes dim r).1.indices.drop (8 * i)).take 8 ∧
        feats.length = 8 ∧ (∀ f ∈ feats, f < dim) ∧
        ((∃ c : Nat, codes[i]? = some (c : Int) ∧
            GoFloat.lt (GoFloat.const (-9223372036854775808)) (val c) = true ∧
            IsFirstArgmax FloatOrder.isNaN GoFloat.lt val feats c) ∨
          (codes[i]? = some (-9223372036854775808) ∧
            ∀ f ∈ feats, GoFloat.lt (GoFloat.const (-9223372036854775808)) (val f) = false)) := by
  have key : ∀ i ∈ List.range numHashes,
      Wta.bin (Wta.new numHashes dim r).1 (fun c => goGet ((List.range dim).map val) (c : Int)) i =
        .ok ((Wta.feats (Wta.new numHashes dim r).1 i).foldl (argStep val (fun c => (c : Int)))
          (minInt64, Wta.floorValue)).1 := by
    intro i hi
    have hi := List.mem_range.mp hi
    apply Wta.bin_eq _ _ val i (Wta.new_len numHashes dim hd r i hi)
    intro c hc
    have := Wta.new_mem numHashes dim r c (Wta.feats_mem _ _ _ hc)
    rw [goGet_ok_of_lt _ _ (by simpa using this)]
    simp
  refine ⟨_, mapM_ok_of_forall _ _ _ key, by simp [Wta.new], ?_⟩
  intro i hi
  refine ⟨Wta.feats (Wta.new numHashes dim r).1 i, by rw [Wta.feats, Nat.mul_comm],
    Wta.feats_length _ _ (Wta.new_len numHashes dim hd r i hi),
    fun f hf => Wta.new_mem numHashes dim r f (Wta.feats_mem _ _ _ hf), ?_⟩
  have hi' : i < (Wta.new numHashes dim r).1.numHashes := hi
  simp only [List.getElem?_map, List.getElem?_range hi', Option.map_some]
  rcases argStep_fold val (fun c => (c : Int)) (Wta.feats (Wta.new numHashes dim r).1 i)
    minInt64 Wta.floorValue with ⟨h1, h2⟩ | ⟨c, h1, h2, h3⟩
  · right; rw [h1]; exact ⟨rfl, h2⟩
  · left; rw [h1]; exact ⟨c, rfl, h2, h3⟩

-- 2 bins over 10 features: the first bin has the features 1..8, its maximum is feature 8
example : Wta.getHashDense (Wta.new 1 10 (fun _ => 0)).1
    ((List.range 10).map (fun (i : Nat) => (i : Rat))) = .ok [8] := by decide +kernel

/-- C15. A transformation `g` of the values that preserves and reflects the order on the data and
keeps values on the same side of -2^63 leaves all the codes unchanged. -/
theorem C15_rank_invariant (numHashes dim : Nat) (r : Rng) (data : List F) (g : F → F)
    (hmono : ∀ a ∈ data, ∀ b ∈ data, GoFloat.lt (g a) (g b) = GoFloat.lt a b)
    (hfloor : ∀ a ∈ data, GoFloat.lt (GoFloat.const (-9223372036854775808)) (g a) =
      GoFloat.lt (GoFloat.const (-9223372036854775808)) a) :
    Wta.getHashDense (Wta.new numHashes dim r).1 (data.map g) =
      Wta.getHashDense (Wta.new numHashes dim r).1 data := by
  generalize (Wta.new numHashes dim r).1 = wh
  have hstep : ∀ (i j : Nat) (h : Int) (v : F), (v = Wta.floorValue ∨ v ∈ data) →
      (∀ e, Wta.binStep wh (fun c => goGet data (c : Int)) i (h, v) j = .error e →
        ∀ v', Wta.binStep wh (fun c => goGet (data.map g) (c : Int)) i (h, v') j = .error e) ∧
      (∀ h' w, Wta.binStep wh (fun c => goGet data (c : Int)) i (h, v) j = .ok (h', w) →
        (w = Wta.floorValue ∨ w ∈ data) ∧
        ∀ v', (v' = g v ∧ v ∈ data) ∨ (v' = Wta.floorValue ∧ v = Wta.floorValue) →
        ∃ w', Wta.binStep wh (fun c => goGet (data.map g) (c : Int)) i (h, v') j = .ok (h', w') ∧
          ((w' = g w ∧ w ∈ data) ∨ (w' = Wta.floorValue ∧ w = Wta.floorValue))) := by
    intro i j h v hv
    unfold Wta.binStep
    cases h1 : goGet wh.indices ((i * Wta.binSize + j : Nat) : Int) with
    | error e0 => simp
    | ok c =>
      simp only [ok_bind]
      rw [goGet_ofNat, goGet_ofNat, List.getElem?_map]
      cases hx : data[c]? with
      | none => simp
      | some x =>
        have hxm : x ∈ data := List.mem_of_getElem? hx
        simp only [Option.map_some, ok_bind]
        constructor
        · intro e he
          split at he <;> simp [pure, Except.pure] at he
        · intro h' w hw
          have aux : ∀ v', (v' = g v ∧ v ∈ data) ∨ (v' = Wta.floorValue ∧ v = Wta.floorValue) →
              GoFloat.lt v' (g x) = GoFloat.lt v x := by
            rintro v' (⟨rfl, hvd⟩ | ⟨rfl, rfl⟩)
            · exact hmono v hvd x hxm
            · exact hfloor x hxm
          by_cases hlt : GoFloat.lt v x = true
          · rw [if_pos hlt] at hw
            simp only [pure, Except.pure, Except.ok.injEq, Prod.mk.injEq] at hw
            obtain ⟨rfl, rfl⟩ := hw
            refine ⟨Or.inr hxm, fun v' hv' => ⟨g x, ?_, Or.inl ⟨rfl, hxm⟩⟩⟩
            rw [if_pos (by rw [aux v' hv']; exact hlt)]; rfl
          · rw [if_neg hlt] at hw
            simp only [pure, Except.pure, Except.ok.injEq, Prod.mk.injEq] at hw
            obtain ⟨rfl, rfl⟩ := hw
            refine ⟨hv, fun v' hv' => ⟨v', ?_, hv'⟩⟩
            rw [if_neg (by rw [aux v' hv']; exact hlt)]; rfl
  have hfold : ∀ (i : Nat) (js : List Nat) (h : Int) (v v' : F), (v = Wta.floorValue ∨ v ∈ data) →
      ((v' = g v ∧ v ∈ data) ∨ (v' = Wta.floorValue ∧ v = Wta.floorValue)) →
      Except.map Prod.fst (js.foldlM (Wta.binStep wh (fun c => goGet (data.map g) (c : Int)) i) (h, v')) =
      Except.map Prod.fst (js.foldlM (Wta.binStep wh (fun c => goGet data (c : Int)) i) (h, v)) := by
    intro i js
    induction js with
    | nil => intro h v v' _ _; rfl
    | cons j js ih =>
      intro h v v' hv hr
      rw [List.foldlM_cons, List.foldlM_cons]
      cases hs : Wta.binStep wh (fun c => goGet data (c : Int)) i (h, v) j with
      | error e => rw [(hstep i j h v hv).1 e hs v']; rfl
      | ok st =>
        obtain ⟨h', w⟩ := st
        obtain ⟨hw, hw'⟩ := (hstep i j h v hv).2 h' w hs
        obtain ⟨w', hw1, hw2⟩ := hw' v' hr
        rw [hw1, ok_bind, ok_bind]
        exact ih h' w w' hw hw2
  unfold Wta.getHashDense
  congr 1
  funext i
  have := hfold i (List.range Wta.binSize) minInt64 Wta.floorValue Wta.floorValue (Or.inl rfl)
    (Or.inr ⟨rfl, rfl⟩)
  unfold Wta.bin
  revert this
  generalize List.foldlM (m := Except Panic) (Wta.binStep wh (fun c => goGet (data.map g) (c : Int)) i) _ _ = a
  generalize List.foldlM (m := Except Panic) (Wta.binStep wh (fun c => goGet data (c : Int)) i) _ _ = b
  intro h
  cases a <;> cases b <;> simp_all [Except.map, bind, Except.bind, pure, Except.pure]

-- a strictly increasing map on concrete data
example : ∀ a ∈ [3, -1, (2 : Rat)], ∀ b ∈ [3, -1, (2 : Rat)],
    GoFloat.lt (2 * a + 1) (2 * b + 1) = GoFloat.lt a b := by decide +kernel

/-- C16 is false of the code: `GetHash` reads `data[curIndex]`, the pair at a *position*, so a
sparse encoding of a vector (here a shorter list) is not hashed like the vector. -/
theorem C16_sparse_dense_disagree :
    ¬ ∀ (numHashes dim : Nat) (r : Rng) (pairs : List (Pair Rat)) (data : List Rat),
      0 < dim → data.length = dim → Denotes pairs data →
      Wta.getHash (Wta.new numHashes dim r).1 pairs =
        Wta.getHashDense (Wta.new numHashes dim r).1 data := by
  intro h
  have hw := h 1 1 (fun _ => 0) [] [0] (by decide) rfl ⟨by simp, by simp, by
    intro i hi
    have : i = 0 := by simp at hi; exact hi
    subst this
    exact ⟨by simp, fun _ => rfl⟩⟩
  revert hw
  decide +kernel

/-- C16. Even with all coordinates listed, a different order of the pairs changes the codes. -/
theorem C16_order_matters :
    ¬ ∀ (numHashes dim : Nat) (r : Rng) (pairs pairs' : List (Pair Rat)),
      0 < dim → pairs.length = dim → pairs.Perm pairs' →
      Wta.getHash (Wta.new numHashes dim r).1 pairs = Wta.getHash (Wta.new numHashes dim r).1 pairs' := by
  intro h
  have hw := h 1 2 (fun _ => 0) [⟨0, 1⟩, ⟨1, 2⟩] [⟨1, 2⟩, ⟨0, 1⟩] (by decide) rfl (List.Perm.swap _ _ _)
  revert hw
  decide +kernel

/-- C16 (what does hold). `GetHash` hashes the list of values in the order given, whatever the
indices; so it agrees with `GetHashDense` when every coordinate is listed in order. Missing from the
full property: pair lists with absent or reordered coordinates. -/
theorem C16_positions_partial (numHashes dim : Nat) (r : Rng) (pairs : List (Pair F)) :
    Wta.getHash (Wta.new numHashes dim r).1 pairs =
      Wta.getHashDense (Wta.new numHashes dim r).1 (pairs.map (·.Value)) := by
  unfold Wta.getHash Wta.getHashDense
  congr 1
  funext i
  congr 1
  funext c
  rw [goGet_ofNat, goGet_ofNat, List.getElem?_map]
  cases pairs[c]? <;> rfl

/-- C16 (what does hold), for the full list of coordinates in order. Missing: any other encoding. -/
theorem C16_densePairs_partial (numHashes dim : Nat) (r : Rng) (data : List F) :
    Wta.getHash (Wta.new numHashes dim r).1 (densePairs data) =
      Wta.getHashDense (Wta.new numHashes dim r).1 data := by
  rw [C16_positions_partial]
  congr 1
  unfold densePairs
  rw [List.map_map]
  have : ((fun p : Pair F => p.Value) ∘ fun p : F × Nat => { Index := (p.2 : Int), Value := p.1 }) =
      Prod.fst := rfl
  rw [this]
  simp

/-- C12 is false of the code: WTA codes are feature indices, not positions in a bin, so a table with
`3k ≤ rangePow` can be indexed out of range and `Add` panics. -/
theorem C12_wta_index_out_of_range :
    ¬ ∀ (k l rangePow dim : Nat) (r r1 r2 : Rng) (s : Lsh.LSH) (data : List Rat)
        (codes idx : List Int) (id : Int),
      0 < dim → rangePow < 63 → 3 * k ≤ rangePow → data.length = dim →
      Lsh.new k l rangePow r1 = .ok (s, r2) →
      Wta.getHashDense (Wta.new (k * l) dim r).1 data = .ok codes →
      Lsh.hashesToIndex .wta s codes = .ok idx →
      ∃ res, Lsh.add s idx id = .ok res := by
  intro h
  obtain ⟨s, r2, hs⟩ : ∃ s r2, Lsh.new 1 1 3 (fun _ => 0) = .ok (s, r2) := ⟨_, _, rfl⟩
  have hadd : (Lsh.new 1 1 3 (fun _ => 0)).bind (fun p => (Lsh.add p.1 [8] 0).map (fun _ => ())) =
      .error .index := by decide +kernel
  obtain ⟨res, hres⟩ := h 1 1 3 16 (fun _ => 0) (fun _ => 0) r2 s
    ((List.range 16).map (fun (i : Nat) => (i : Rat))) [8] [8] 0
    (by decide) (by decide) (by decide) (by simp) hs (by decide +kernel) (by
      have : (Lsh.new 1 1 3 (fun _ => 0)).bind (fun p => Lsh.hashesToIndex .wta p.1 [8]) = .ok [8] := by
        decide +kernel
      rw [hs] at this; exact this)
  rw [hs] at hadd
  simp only [Except.bind] at hadd
  rw [hres] at hadd
  simp [Except.map] at hadd

/-- C12 (what does hold). If all values are above -2^63 and `(dim-1)*(4^k-1) < 3*2^rangePow`
(for example `dim ≤ 8` and `rangePow ≥ 2k+2`), the table indices are valid. Missing from the full
property: larger dimensions. -/
theorem C12_wta_index_valid_partial [FloatOrder F] (s : Lsh.LSH) (dim : Nat) (hd : 0 < dim) (r : Rng)
    (val : Nat → F)
    (hval : ∀ f, f < dim → GoFloat.lt (GoFloat.const (-9223372036854775808)) (val f) = true)
    (hrp : s.rangePow < 63) (hsmall : ((dim : Int) - 1) * (4 ^ s.k - 1) < 3 * 2 ^ s.rangePow) :
    ∃ codes idx, Wta.getHashDense (Wta.new (s.k * s.l) dim r).1 ((List.range dim).map val) = .ok codes ∧
      Lsh.hashesToIndex .wta s codes = .ok idx ∧ idx.length = s.l ∧
      ∀ v ∈ idx, 0 ≤ v ∧ v < 2 ^ s.rangePow := by
  obtain ⟨codes, hc, hl, hcodes⟩ := C14_dense_argmax (s.k * s.l) dim hd r val
  have hrange : ∀ c ∈ codes, 0 ≤ c ∧ c ≤ (dim : Int) - 1 := by
    intro c hcm
    obtain ⟨i, hi⟩ := List.mem_iff_getElem?.mp hcm
    have hil : i < s.k * s.l := by
      rcases Nat.lt_or_ge i (s.k * s.l) with h | h
      · exact h
      · rw [List.getElem?_eq_none (by omega)] at hi; simp at hi
    obtain ⟨feats, -, hfl, hfd, hor⟩ := hcodes i hil
    rcases hor with ⟨c', hc', -, pre, post, hf, -⟩ | ⟨-, hno⟩
    · rw [hi] at hc'
      simp only [Option.some.injEq] at hc'
      subst hc'
      have := hfd c' (by rw [hf]; simp)
      omega
    · exfalso
      have hx : feats[0]'(by omega) ∈ feats := List.getElem_mem _
      have := hval _ (hfd _ hx)
      rw [hno _ hx] at this
      simp at this
  have h63 : (2:Int) ^ s.rangePow ≤ 2 ^ 62 := by
    exact_mod_cast Nat.pow_le_pow_right (by omega : 2 > 0) (by omega : s.rangePow ≤ 62)
  have e62 : (2:Int) ^ 62 = 4611686018427387904 := rfl
  have e63 : (2:Int) ^ 63 = 9223372036854775808 := rfl
  have e4 : (2:Int) ^ 2 = 4 := rfl
  have hb : ∀ i, i < s.l → 0 ≤ positional (2 ^ 2) (group s.k codes i) ∧
      positional (2 ^ 2) (group s.k codes i) < 2 ^ s.rangePow := by
    intro i hi
    have hmem : ∀ c ∈ group s.k codes i, 0 ≤ c ∧ c ≤ (dim : Int) - 1 := fun c hc =>
      hrange c (List.mem_of_mem_drop (List.mem_of_mem_take hc))
    rw [e4]
    refine ⟨Lsh.positional_nonneg 4 (by omega) _ (fun c hc => (hmem c hc).1), ?_⟩
    have h1 := Lsh.positional_le 4 ((dim : Int) - 1) (by omega) (group s.k codes i)
      (fun c hc => (hmem c hc).2) (by omega)
    rw [Lsh.group_length _ _ _ (Lsh.mul_add_le _ _ _ _ hi (by omega))] at h1
    omega
  refine ⟨codes, _, hc, Lsh.hashesToIndex_positional .wta 2 rfl s codes (by omega) (fun i hi => ?_), by simp, ?_⟩
  · have := hb i hi; omega
  · intro v hv
    rw [List.mem_map] at hv
    obtain ⟨i, hi, rfl⟩ := hv
    exact hb i (List.mem_range.mp hi)

-- the hypotheses of the partial theorem: 8 features, k = 3, rangePow = 8
example : (((8 : Nat) : Int) - 1) * (4 ^ 3 - 1) < 3 * 2 ^ 8 := by decide

end Goslide.Props
